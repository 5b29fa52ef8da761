import Verif.Spec.Reenter
import Verif.Lemmas.Downlink

/-! Calls made from inside application callbacks: safety, and what they leave alone. -/

namespace Uwan
open Spec

variable {E : Env}

/-! ### Calls -/

theorem sentSt_region (s : St) (d : Sf × Bw) (fr : Bytes) : (sentSt s d fr).region = s.region := by
  unfold sentSt adrHandleUplink; simp only; split <;> (try split) <;> rfl

theorem call_quiet {s s' : St} (h : Inv s) {op : Op} (hv : op.Call) {r : Ret} {ev : List Ev}
    (hs : step E s op = .ok (r, s', ev)) : results ev = [] := by
  cases step_shape h hs with
  | nothing => rfl
  | init => rfl
  | sent f d q l hp hr ho hf hq => rw [results_append, results_append, results_quiet hq]; rfl
  | window => rfl
  | txDone m o _ ho => exact absurd ho (hv.2 m o)
  | rx1Timeout m o _ ho => exact absurd ho (hv.2 m o)
  | result m o _ _ _ _ _ ho => exact absurd ho (hv.2 m o)

theorem call_ok {s : St} (h : Inv s) (hr : s.region.isSome = true) {op : Op} (hv : op.Call) :
    ∃ r s' ev, step E s op = .ok (r, s', ev) ∧ Inv s' ∧ s'.region.isSome = true ∧ results ev = [] := by
  rcases step_ok E h hv.1 with ⟨r, s', ev, hs, hi⟩ | ⟨ht, -⟩
  · refine ⟨r, s', ev, hs, hi, ?_, call_quiet h hv hs⟩
    cases op with
    | event m o => exact absurd rfl (hv.2 m o)
    | init r =>
      simp only [step, Except.ok.injEq, Prod.mk.injEq] at hs
      rw [← hs.2.1, uwanInit_eq]; rfl
    | send p l c n =>
      obtain ⟨e, -, hc⟩ := step_send h hs
      cases hc with
      | sent => rw [sentSt_region]; exact hr
      | _ => exact hr
    | join a b =>
      obtain ⟨e, -, hc⟩ := step_join h hs
      cases hc with
      | sent => exact hr
      | _ => exact hr
    | timer id =>
      simp only [step, Except.ok.injEq, Prod.mk.injEq] at hs
      rw [← hs.2.1]; unfold timerCallback; repeat' split
      all_goals exact hr
    | setRx2 f d =>
      simp only [step, Except.ok.injEq, Prod.mk.injEq] at hs
      rw [← hs.2.1]; unfold setRx2; repeat' split
      all_goals exact hr
    | setDr d =>
      simp only [step, Except.ok.injEq, Prod.mk.injEq] at hs
      rw [← hs.2.1]; unfold setDr; repeat' split
      all_goals exact hr
    | setNbTrans d =>
      simp only [step, Except.ok.injEq, Prod.mk.injEq] at hs
      rw [← hs.2.1]; unfold setNbTrans setNbTransInt; simp only; repeat' split
      all_goals exact hr
    | setTxPower d =>
      simp only [step, Except.ok.injEq, Prod.mk.injEq] at hs
      rw [← hs.2.1]; unfold setTxPower setTxPowerInt; simp only; repeat' split
      all_goals exact hr
    | setRx1DrOffset d =>
      simp only [step, Except.ok.injEq, Prod.mk.injEq] at hs
      rw [← hs.2.1, (macFrame_setRx1DrOffset s d).region]; exact hr
    | setRx1Delay d =>
      simp only [step, Except.ok.injEq, Prod.mk.injEq] at hs
      rw [← hs.2.1, (macFrame_setRx1Delay s d).region]; exact hr
    | _ =>
      simp only [step, Except.ok.injEq, Prod.mk.injEq] at hs
      rw [← hs.2.1]; exact hr
  · cases op with
    | event m o => exact absurd rfl (hv.2 m o)
    | _ => exact ht.elim

theorem calls_ok : ∀ (ops : List Op) (s : St), Inv s → s.region.isSome = true → (∀ op ∈ ops, op.Call) →
    ∃ s' ev, run E s ops = .ok (s', ev) ∧ Inv s' ∧ s'.region.isSome = true ∧ results ev = []
  | [], s, h, hr, _ => ⟨s, [], rfl, h, hr, rfl⟩
  | op :: ops, s, h, hr, hv => by
    obtain ⟨r, s1, ev1, h1, hi1, hr1, hq1⟩ := call_ok (E := E) h hr (hv op (by simp))
    obtain ⟨s2, ev2, h2, hi2, hr2, hq2⟩ := calls_ok ops s1 hi1 hr1 (fun o ho => hv o (by simp [ho]))
    exact ⟨s2, ev1 ++ ev2, by simp only [run, h1, h2, bind, Except.bind], hi2, hr2,
      by rw [results_append, hq1, hq2]; rfl⟩

/-! ### MAC commands -/

theorem runHandlerR_ok {s : St} (h : Inv s) (hr : s.region.isSome = true) {ops : List Op} (hv : ∀ op ∈ ops, op.Call)
    (c : MacCommand) (hc : c ∈ macCommands) (pld : Bytes) (hl : c.pldSize ≤ pld.length) (bat : Byte) :
    ∃ b s' ev, runHandlerR E ops c.handler s pld bat = .ok (b, s', ev) ∧ Inv s' ∧ s'.region.isSome = true ∧
      results ev = [] := by
  obtain ⟨b0, s0, ev0, e0, hi0, hf0⟩ := runHandler_ok h hr c hc pld hl bat
  have plain : ∃ b s' ev, runHandler c.handler s pld bat = .ok (b, s', ev) ∧ Inv s' ∧ s'.region.isSome = true ∧
      results ev = [] :=
    ⟨b0, s0, ev0, e0, hi0, by rw [hf0.region]; exact hr, results_quiet (runHandler_quiet e0)⟩
  obtain ⟨s1, ev1, h1, hi1, hr1, hq1⟩ := calls_ok (E := E) ops s h hr hv
  unfold runHandlerR
  split
  · rename_i hh
    rw [hh] at e0
    unfold hLinkCheckR
    simp only [runHandler, hLinkCheck] at e0
    split
    · split
      · split
        · rw [h1]; exact ⟨_, _, _, rfl, hi1, hr1, hq1⟩
        · simp_all
      · exact ⟨_, _, _, rfl, h, hr, rfl⟩
    · exact ⟨_, _, _, rfl, h, hr, rfl⟩
  · have he : ∀ (x : St), Inv x → x.region.isSome = true → ∀ a b, Inv (x.enqueue a b).2 ∧ (x.enqueue a b).2.region.isSome = true :=
      fun x hx hxr a b => ⟨hx.enqueue a b, by rw [(macFrame_enqueue x a b).region]; exact hxr⟩
    unfold hDevStatusR
    simp only
    split
    · split
      · rw [h1]; exact ⟨_, _, _, rfl, (he _ hi1 hr1 _ _).1, (he _ hi1 hr1 _ _).2, hq1⟩
      · exact ⟨_, _, _, rfl, (he _ h hr _ _).1, (he _ h hr _ _).2, rfl⟩
    · exact ⟨_, _, _, rfl, (he _ h hr _ _).1, (he _ h hr _ _).2, rfl⟩
  · rename_i hh
    rw [hh] at e0
    unfold hDeviceTimeR
    simp only [runHandler, hDeviceTime] at e0
    split
    · split
      · split
        · rw [h1]
          refine ⟨_, _, _, rfl, hi1, hr1, ?_⟩
          rw [results_append, results_quiet (shiftMark_quiet _)]; exact hq1
        · simp_all
      · exact ⟨_, _, _, rfl, h, hr, rfl⟩
    · exact ⟨_, _, _, rfl, h, hr, rfl⟩
  · exact plain

theorem macLoopR_ok {A : Inside} (ha : A.Valid) (bat : Nat → Byte) : ∀ (n : Nat) (s : St) (off len : Nat), len ≤ n →
    off + len ≤ 255 → Inv s → s.region.isSome = true →
    ∃ s' ev, macLoopR E A bat n s off len = .ok (s', ev) ∧ Inv s' ∧ s'.region.isSome = true ∧ results ev = []
  | n, s, off, 0, _, _, h, hr => ⟨s, [], by cases n <;> rfl, h, hr, rfl⟩
  | 0, _, _, _ + 1, hl, _, _, _ => by simp at hl
  | n + 1, s, off, len + 1, hl, hb, h, hr => by
    rw [macLoopR]
    have hlen : (s.frame.drop off).length = 255 - off := by simp [h.frame]
    split
    · next hx => rw [hx] at hlen; simp at hlen; omega
    next cid more hx =>
    rw [hx] at hlen
    split
    · exact ⟨s, [], rfl, h, hr, rfl⟩
    · next c hf =>
      split
      · next hsz =>
        obtain ⟨b, s', ev, e, hi, hr', hq⟩ := runHandlerR_ok (E := E) h hr (ha.1 len) c (List.mem_of_find?_eq_some hf)
          (more.take len) (by simp at hlen ⊢; omega) (bat len)
        rw [e]
        simp only [bind, Except.bind]
        cases b with
        | false => exact ⟨s', ev, rfl, hi, hr', hq⟩
        | true =>
          obtain ⟨s2, ev2, e2, hi2, hr2, hq2⟩ := macLoopR_ok ha bat n s' (off + 1 + c.pldSize) (len - c.pldSize)
            (by omega) (by omega) hi hr'
          simp only [↓reduceIte, e2]
          exact ⟨s2, ev ++ ev2, rfl, hi2, hr2, by rw [results_append, hq, hq2]; rfl⟩
      · exact ⟨s, [], rfl, h, hr, rfl⟩

/-! ### The end of `handle_data_msg` -/

theorem dataTail_ok {pkt : DlPkt} {n : Nat} {l : Bytes} (h : n ≤ l.length) :
    ∃ p x, dataTail pkt n l = .ok (p, x) ∧ ∀ q, x = some q → 1 + q.length ≤ n := by
  unfold dataTail
  split
  · next h0 =>
    cases l with
    | nil => simp at h; omega
    | cons a l =>
      refine ⟨_, _, rfl, fun q hq => ?_⟩
      simp only [Option.some.injEq] at hq
      rw [← hq]; simp; omega
  · exact ⟨_, _, rfl, fun q hq => by simp at hq⟩

theorem dataFinish_ok {s : St} (h : Inv s) (pkt : DlPkt) {x : Option Bytes} {off : Nat} (buf : Bytes)
    (hx : ∀ q, x = some q → off + q.length ≤ 255) :
    ∃ e s' p ev, dataFinish E s pkt x buf off = .ok (e, s', p, ev) ∧ Inv s' ∧ s'.region = s.region ∧ Quiet ev := by
  have hadr : ∀ s : St, Inv s → Inv (adrHandleDownlink s) := fun s h => { h with }
  unfold dataFinish
  simp only
  split
  · exact ⟨_, _, _, _, rfl, h, rfl, calcMic_quiet ..⟩
  · split
    · next b l =>
      have hq := hx (b :: l) rfl
      simp only [bind, Except.bind]
      obtain ⟨fr, hfr, hfl⟩ := blit_ok (dst := s.frame) (off := off)
        (src := (encryptPayload E s.session (b :: l) (if pkt.fPort = 0 then s.session.nwkSKey else s.session.appSKey) 1).1)
        (by rw [encryptPayload_length, h.frame]; exact hq)
      rw [hfr]
      exact ⟨_, _, _, _, rfl, hadr _ { h with frame := by rw [hfl, h.frame] }, rfl,
        (calcMic_quiet ..).append (encryptPayload_quiet ..)⟩
    · exact ⟨_, _, _, _, rfl, hadr s h, rfl, calcMic_quiet ..⟩

theorem dataBodyR_ok {A : Inside} (ha : A.Valid) (bat : Nat → Byte) {s : St} (h : Inv s) (hr : s.region.isSome = true)
    (pkt : DlPkt) {size fo : Nat} (h1 : 12 + fo ≤ size) (h2 : size ≤ 255) :
    ∃ e s' p ev, dataBodyR E A bat s pkt size fo = .ok (e, s', p, ev) ∧ Inv s' ∧ s'.region.isSome = true ∧ results ev = [] := by
  unfold dataBodyR
  simp only
  have hi : Inv { s with snr := pkt.snr } := { h with }
  obtain ⟨s1, ev1, e1, hi1, hr1, hq1⟩ : ∃ s' ev, dataCmdsR E A bat { s with snr := pkt.snr } fo = .ok (s', ev) ∧
      Inv s' ∧ s'.region.isSome = true ∧ results ev = [] := by
    unfold dataCmdsR
    split
    · exact macLoopR_ok ha bat fo _ 8 fo (Nat.le_refl _) (by omega) hi hr
    · exact ⟨_, _, rfl, hi, hr, rfl⟩
  rw [e1]
  simp only [bind, Except.bind]
  obtain ⟨p, x, e2, hx⟩ := dataTail_ok (pkt := pkt) (n := size - (12 + fo)) (l := (s1.frame.take size).drop (8 + fo))
    (by simp [hi1.frame]; omega)
  rw [e2]
  simp only
  obtain ⟨e, s3, p3, ev3, e3, hi3, hr3, hq3⟩ := dataFinish_ok (E := E) hi1 p (x := x) (off := 8 + fo + 1) (s1.frame.take size)
    (fun q hq => by have := hx q hq; omega)
  rw [e3]
  exact ⟨_, _, _, _, rfl, hi3, by rw [hr3]; exact hr1, by rw [results_append, hq1, results_quiet hq3]; rfl⟩

/-! ### `handle_data_msg` up to the MAC commands -/

/-- The state in which the MAC commands are handled, before the SNR is stored. -/
def DHdr.counted (H : DHdr) (s : St) (d : U32) : St :=
  { H.mark s with session := { (H.mark s).session with fCntDown := d } }

/-- Either the message is dropped before the application is called, or the rest of the work is `dataBodyR`. -/
theorem handleDataMsgR_split (bat : Nat → Byte) {s : St} (h : Inv s) (pkt : DlPkt) (buf : Bytes) (hp : pkt.data = some buf) :
    (∃ e s' p ev, (∀ A, handleDataMsgR E A bat s pkt = .ok (e, s', p, ev)) ∧ handleDataMsg E bat s pkt = .ok (e, s', p, ev) ∧
      Inv s' ∧ s'.region = s.region ∧ Quiet ev ∧ (s' = s ∨ ∃ H : DHdr, s' = H.mark s)) ∨
    ∃ (H : DHdr) (d : U32), buf = H.bytes ∧ 12 + H.fo ≤ buf.length ∧
      (∀ A, handleDataMsgR E A bat s pkt = (do
        let (e, s', p, ev) ← dataBodyR E A bat (H.counted s d) pkt buf.length H.fo
        .ok (e, s', p, shiftMark H.a3 ++ ev))) ∧
      handleDataMsg E bat s pkt = (do
        let (e, s', p, ev) ← dataBody E bat (H.counted s d) pkt buf H.rest H.fo
        .ok (e, s', p, shiftMark H.a3 ++ ev)) := by
  unfold handleDataMsgR handleDataMsg
  rw [hp]
  simp only
  by_cases hl : buf.length < 12
  · left; simp only [if_pos hl]; exact ⟨_, _, _, _, fun _ => rfl, rfl, h, rfl, .nil, .inl rfl⟩
  obtain ⟨H, hb⟩ := DHdr.exists (buf := buf) (by omega)
  simp only [if_neg hl]
  subst hb
  show (∃ e s' p ev, (∀ A, (if (H.mhdr &&& 0x3) ≠ 0 then _ else _) = _) ∧ (if (H.mhdr &&& 0x3) ≠ 0 then _ else _) = _ ∧ _) ∨
    ∃ H2 d, _ ∧ _ ∧ (∀ A, (if (H.mhdr &&& 0x3) ≠ 0 then _ else _) = _) ∧ (if (H.mhdr &&& 0x3) ≠ 0 then _ else _) = _
  by_cases h0 : (H.mhdr &&& 0x3) ≠ 0
  · left; simp only [if_pos h0]; exact ⟨_, _, _, _, fun _ => rfl, rfl, h, rfl, .nil, .inl rfl⟩
  simp only [if_neg h0]
  by_cases h1 : (H.mhdr >>> 5) &&& 7 ≠ 3 ∧ (H.mhdr >>> 5) &&& 7 ≠ 5
  · left; simp only [if_pos h1]; exact ⟨_, _, _, _, fun _ => rfl, rfl, h, rfl, .nil, .inl rfl⟩
  simp only [if_neg h1]
  by_cases h2 : (markAck s ((H.mhdr >>> 5) &&& 7)).session.devAddr ≠ or32 H.a0 H.a1 H.a2 H.a3
  · left; simp only [if_pos h2]
    exact ⟨_, _, _, _, fun _ => rfl, rfl, h.mark H, mark_region H s, shiftMark_quiet _, .inr ⟨H, rfl⟩⟩
  simp only [if_neg h2]
  by_cases h3 : H.bytes.length < 12 + (H.fctrl &&& 0xf).toNat
  · left; simp only [if_pos h3]
    exact ⟨_, _, _, _, fun _ => rfl, rfl, h.mark H, mark_region H s, shiftMark_quiet _, .inr ⟨H, rfl⟩⟩
  simp only [if_neg h3]
  cases hd : nextFCntDown (markAck s ((H.mhdr >>> 5) &&& 7)).session.fCntDown (or16 H.c0 H.c1) with
  | none =>
    left
    exact ⟨_, _, _, _, fun _ => rfl, rfl, h.mark H, mark_region H s, shiftMark_quiet _, .inr ⟨H, rfl⟩⟩
  | some d =>
    right
    exact ⟨H, d, rfl, Nat.le_of_not_lt h3, fun _ => rfl, rfl⟩

theorem handleDataMsgR_ok {A : Inside} (ha : A.Valid) (bat : Nat → Byte) {s : St} (h : Inv s) (hr : s.region.isSome = true)
    (pkt : DlPkt) (buf : Bytes) (hp : pkt.data = some buf) (hl : buf.length ≤ 255) :
    ∃ e s' p ev, handleDataMsgR E A bat s pkt = .ok (e, s', p, ev) ∧ Inv s' ∧ s'.region.isSome = true ∧ results ev = [] := by
  rcases handleDataMsgR_split (E := E) bat h pkt buf hp with ⟨e, s', p, ev, h1, -, hi, hr', hq, -⟩ | ⟨H, d, hb, hf, h1, -⟩
  · exact ⟨e, s', p, ev, h1 A, hi, by rw [hr']; exact hr, results_quiet hq⟩
  · have hm := h.mark H
    have hc : Inv (H.counted s d) := { hm with }
    obtain ⟨e, s', p, ev, h2, hi, hr', hq⟩ := dataBodyR_ok (E := E) ha bat hc
      (by show (H.mark s).region.isSome = true; rw [mark_region]; exact hr) pkt hf hl
    rw [h1 A, h2]
    exact ⟨_, _, _, _, rfl, hi, hr', by rw [results_append, hq, results_quiet (shiftMark_quiet _)]; rfl⟩

/-! ### `handle_downlink` and `evt_handler` -/

theorem handleDownlinkR_ok {A : Inside} (ha : A.Valid) (o : Oracle) {s : St} (h : Inv s) (hr : s.region.isSome = true)
    (err : Err) : ∃ s' ev, handleDownlinkR E A o s err = .ok (s', ev) ∧ Inv s' := by
  unfold handleDownlinkR
  by_cases he : err = .no
  rotate_left
  · rw [if_neg he]; exact ⟨_, _, rfl, h.joinStateOff⟩
  rw [if_pos he]
  have hl : (o.rxData.take 255).length ≤ 255 := by simp; omega
  simp only [blit_zero (dst := s.frame) (src := o.rxData.take 255) (by rw [h.frame]; exact hl)]
  have hframe := rxSt_frame o h.frame
  have hinv : Inv (rxSt o s) := h.frameUpd hframe
  have hhd : ∃ b, (rxSt o s).frame.head? = some b := by
    cases hx : (rxSt o s).frame with
    | nil => rw [hx] at hframe; simp at hframe
    | cons b l => exact ⟨b, rfl⟩
  obtain ⟨b, hb⟩ := hhd
  have hb' : (o.rxData.take 255 ++ s.frame.drop (o.rxData.take 255).length).head? = some b := hb
  simp only [orOob, bind, Except.bind, hb']
  by_cases hj : s.joinState = true
  · obtain ⟨e, s', p, ev, heq, hc⟩ := handleJoinMsg_cases E hinv hr (rxPkt o) (o.rxData.take 255) rfl
    rw [if_pos hj]
    unfold rxSt rxPkt at heq
    rw [heq]
    exact ⟨_, _, rfl, (hc.inv hinv).joinStateOff⟩
  · obtain ⟨e, s', p, ev, heq, hi, -⟩ := handleDataMsgR_ok (E := E) ha o.bat hinv hr (rxPkt o) (o.rxData.take 255) rfl hl
    rw [if_neg hj]
    unfold rxSt rxPkt at heq
    rw [heq]
    exact ⟨_, _, rfl, hi.joinStateOff⟩

theorem macOnTxCompleteR_ok {ops : List Op} (hv : ∀ op ∈ ops, op.Call) {s : St} (h : Inv s) (hr : s.region.isSome = true) (t : U32) :
    (∃ s' ev, macOnTxCompleteR E ops s t = .ok (s', ev) ∧ Inv s' ∧ results ev = []) ∨
    (s.mac.saveDevTime = true ∧ s.mac.cbs = none ∧ macOnTxCompleteR E ops s t = .error .nullDeref) := by
  unfold macOnTxCompleteR
  split
  · next hs =>
    split
    · next hn => right; exact ⟨hs, hn, rfl⟩
    · left
      simp only
      split
      · obtain ⟨s1, ev1, e1, hi1, -, hq⟩ := calls_ok (E := E) ops
          { s with mac := { s.mac with saveDevTime := false } } { h with } hr hv
        rw [e1]
        exact ⟨_, _, rfl, { hi1 with }, hq⟩
      · exact ⟨_, _, rfl, { h with }, rfl⟩
  · left; exact ⟨_, _, rfl, h, rfl⟩

theorem evtHandlerR_ok {A : Inside} (ha : A.Valid) (o : Oracle) {s : St} (h : Inv s) (mask : Byte) :
    (∃ s' ev, evtHandlerR E A o s mask = .ok (s', ev) ∧ Inv s') ∨
    (TimeTrap s mask ∧ evtHandlerR E A o s mask = .error .nullDeref) := by
  unfold evtHandlerR
  have hi : ∀ p, s.phase ≠ .notInit → Inv { s with phase := p } := fun p hp => { h with region := fun _ => h.region hp }
  cases hp : s.phase with
  | notInit => left; exact ⟨_, _, rfl, h⟩
  | idle => left; exact ⟨_, _, rfl, h⟩
  | tx =>
    have hreg := h.region (by rw [hp]; decide)
    have h1 := hi .rx1 (by rw [hp]; decide)
    simp only [evtTxR]
    cases hm : irqTxDone mask with
    | false => left; exact ⟨_, _, rfl, h⟩
    | true =>
      simp only [↓reduceIte, rx1Params_ok h, bind, Except.bind]
      rcases macOnTxCompleteR_ok (E := E) ha.2 (s := { s with phase := .rx1, pp := rx1Pp s }) { h1 with } hreg o.devTime with
        ⟨s', ev, e, hi', -⟩ | ⟨h2, h3, e⟩
      · left; rw [e]; exact ⟨_, _, rfl, hi'⟩
      · right; rw [e]; exact ⟨⟨hp, hm, h2, h3⟩, rfl⟩
  | rx1 =>
    left
    have hreg := h.region (by rw [hp]; decide)
    simp only [evtRx1R]
    cases ht : irqRxTimeout mask with
    | true =>
      obtain ⟨sf, hd, hsf⟩ := drTable_lt h.rx2Dr
      simp only [↓reduceIte, hd, orOob, bind, Except.bind]
      have h1 := hi .rx2 (by rw [hp]; decide)
      exact ⟨_, _, rfl, { h1 with }⟩
    | false =>
      cases hm : irqRxDone mask with
      | false => exact ⟨_, _, rfl, h⟩
      | true =>
        obtain ⟨s', ev, he, hc⟩ := handleDownlinkR_ok (E := E) ha o (hi .idle (by rw [hp]; decide)) hreg
          (if irqCrcError mask then .rxCrc else .no)
        simp only [↓reduceIte, Bool.false_eq_true, he, bind, Except.bind]
        exact ⟨_, _, rfl, hc⟩
  | rx2 =>
    left
    have hreg := h.region (by rw [hp]; decide)
    simp only [evtRx2R]
    cases ht : irqRxTimeout mask with
    | true =>
      obtain ⟨s', ev, he, hc⟩ := handleDownlinkR_ok (E := E) ha o (hi .idle (by rw [hp]; decide)) hreg .rxTimeout
      simp only [↓reduceIte, he]
      exact ⟨_, _, rfl, hc⟩
    | false =>
      cases hm : irqRxDone mask with
      | false => exact ⟨_, _, rfl, h⟩
      | true =>
        obtain ⟨s', ev, he, hc⟩ := handleDownlinkR_ok (E := E) ha o (hi .idle (by rw [hp]; decide)) hreg
          (if irqCrcError mask then .rxCrc else .no)
        simp only [↓reduceIte, Bool.false_eq_true, he]
        exact ⟨_, _, rfl, hc⟩

/-- Every operation, whatever is called inside the callbacks, succeeds and leads to a good state, except for the one trap. -/
theorem stepR_ok {A : Inside} (ha : A.Valid) {s : St} (h : Inv s) {op : Op} (hv : op.Valid) :
    (∃ r s' ev, stepR E A s op = .ok (r, s', ev) ∧ Inv s') ∨ (op.Trap s ∧ stepR E A s op = .error .nullDeref) := by
  unfold stepR
  split
  · next m o =>
    rcases evtHandlerR_ok (E := E) ha o h m with ⟨s', ev, he, hi⟩ | ⟨ht, he⟩
    · left; exact ⟨_, _, _, by simp only [he]; rfl, hi⟩
    · right; exact ⟨ht, by simp only [he]; rfl⟩
  · exact step_ok E h hv

theorem Reach.inv {s : St} (h : Reach E s) : Inv s := by
  induction h with
  | boot => exact .boot
  | step h ha hv hs ih =>
    rcases stepR_ok (E := E) ha ih hv with ⟨r, s', ev, he, hi⟩ | ⟨-, he⟩
    · rw [hs] at he; simp only [Except.ok.injEq, Prod.mk.injEq] at he; rw [he.2.1]; exact hi
    · rw [hs] at he; simp at he

/-! ### Without calls inside callbacks, the model is that of `Model/Stack` -/

theorem runHandlerR_none (h : MacHandler) (s : St) (pld : Bytes) (bat : Byte) :
    runHandlerR E [] h s pld bat = runHandler h s pld bat := by
  cases h <;> simp only [runHandlerR, runHandler]
  · unfold hLinkCheckR hLinkCheck
    cases s.mac.cbs with
    | none => rfl
    | some c =>
      simp only
      split
      · match pld with
        | [] => rfl
        | [_] => rfl
        | _ :: _ :: _ => rfl
      · rfl
  · unfold hDevStatusR hDevStatus
    cases s.mac.cbs with
    | none => rfl
    | some c => simp only; split <;> rfl
  · unfold hDeviceTimeR hDeviceTime
    cases s.mac.cbs with
    | none => rfl
    | some c =>
      simp only
      split
      · match pld with
        | [] => rfl
        | [_] => rfl
        | [_, _] => rfl
        | [_, _, _] => rfl
        | [_, _, _, _] => rfl
        | _ :: _ :: _ :: _ :: _ :: _ => rfl
      · rfl

theorem macLoopR_none (bat : Nat → Byte) : ∀ (n : Nat) (s : St) (off len : Nat), Inv s → s.region.isSome = true → off + len ≤ 255 →
    macLoopR E .none bat n s off len = macLoop bat n s ((s.frame.drop off).take len)
  | n, s, off, 0, _, _, _ => by cases n <;> simp [macLoopR, macLoop]
  | 0, s, off, len + 1, h, _, hb => by
    have hlen : (s.frame.drop off).length = 255 - off := by simp [h.frame]
    cases hx : s.frame.drop off with
    | nil => rw [hx] at hlen; simp at hlen; omega
    | cons a l => rw [List.take_succ_cons, macLoop, macLoopR]
  | n + 1, s, off, len + 1, h, hr, hb => by
    have hlen : (s.frame.drop off).length = 255 - off := by simp [h.frame]
    cases hx : s.frame.drop off with
    | nil => rw [hx] at hlen; simp at hlen; omega
    | cons cid more =>
      rw [hx] at hlen
      have hml : (more.take len).length = len := by simp at hlen ⊢; omega
      rw [List.take_succ_cons, macLoop, macLoopR, hx]
      simp only [hml]
      cases hf : macCommands.find? (fun c => c.cid == cid) with
      | none => rfl
      | some c =>
        simp only
        by_cases hsz : c.pldSize ≤ len
        · simp only [if_pos hsz]
          have e0 := runHandlerR_none (E := E) c.handler s (more.take len) (bat len)
          change runHandlerR E (Inside.none.mac len) c.handler s (more.take len) (bat len) = _ at e0
          rw [e0]
          obtain ⟨b, s', ev, e, hi, hfr⟩ := runHandler_ok h hr c (List.mem_of_find?_eq_some hf) (more.take len)
            (by rw [hml]; exact hsz) (bat len)
          rw [e]
          simp only [bind, Except.bind]
          cases b with
          | false => simp
          | true =>
            have ih := macLoopR_none bat n s' (off + 1 + c.pldSize) (len - c.pldSize) hi (by rw [hfr.region]; exact hr) (by omega)
            have em : more = s.frame.drop (off + 1) := by
              have := congrArg List.tail hx
              simpa using this.symm
            have el : (s'.frame.drop (off + 1 + c.pldSize)).take (len - c.pldSize) = (more.take len).drop c.pldSize := by
              rw [hfr.frame, em, List.drop_take, List.drop_drop]
            simp only [↓reduceIte, ih, el]
        · simp only [if_neg hsz]

theorem dataBodyR_none (bat : Nat → Byte) {s : St} (h : Inv s) (hr : s.region.isSome = true) (pkt : DlPkt) {buf : Bytes} {fo : Nat}
    (hb : s.frame.take buf.length = buf) (h1 : 12 + fo ≤ buf.length) (h2 : buf.length ≤ 255) :
    dataBodyR E .none bat s pkt buf.length fo = dataBody E bat s pkt buf (buf.drop 8) fo := by
  unfold dataBodyR dataBody
  simp only
  have hi : Inv { s with snr := pkt.snr } := { h with }
  have hc : dataCmdsR E .none bat { s with snr := pkt.snr } fo = dataCmds bat { s with snr := pkt.snr } fo (buf.drop 8) := by
    unfold dataCmdsR dataCmds macHandleCommands
    split
    · rw [macLoopR_none bat fo _ 8 fo hi hr (by omega)]
      have e : (s.frame.drop 8).take fo = (buf.drop 8).take fo := by
        conv => rhs; rw [← hb]
        rw [List.drop_take, List.take_take]
        congr 1; omega
      have el : ((buf.drop 8).take fo).length = fo := by simp; omega
      rw [el]; exact congrArg _ e
    · rfl
  rw [hc]
  have hcmd : ∃ s' ev, dataCmds bat { s with snr := pkt.snr } fo (buf.drop 8) = .ok (s', ev) ∧ s'.frame = s.frame := by
    unfold dataCmds
    split
    · obtain ⟨s', ev, e, -, hfr⟩ := macHandleCommands_ok bat hi hr ((buf.drop 8).take fo)
      exact ⟨s', ev, e, hfr.frame⟩
    · exact ⟨_, _, rfl, rfl⟩
  obtain ⟨s', ev, e, hf⟩ := hcmd
  rw [e]
  simp only [bind, Except.bind, hf, hb, List.drop_drop]

theorem handleDataMsgR_none (bat : Nat → Byte) {s : St} (h : Inv s) (hr : s.region.isSome = true) (pkt : DlPkt) {buf : Bytes}
    (hp : pkt.data = some buf) (hb : s.frame.take buf.length = buf) (hl : buf.length ≤ 255) :
    handleDataMsgR E .none bat s pkt = handleDataMsg E bat s pkt := by
  rcases handleDataMsgR_split (E := E) bat h pkt buf hp with ⟨e, s', p, ev, h1, h2, -⟩ | ⟨H, d, hH, hf, h1, h2⟩
  · rw [h1, h2]
  · have hm := h.mark H
    have hc : Inv (H.counted s d) := { hm with }
    have hfr : (H.counted s d).frame = s.frame := by
      show (H.mark s).frame = s.frame
      unfold DHdr.mark markAck; split <;> rfl
    rw [h1, h2, dataBodyR_none bat hc (by show (H.mark s).region.isSome = true; rw [mark_region]; exact hr) pkt
      (by rw [hfr]; exact hb) hf hl]
    have : buf.drop 8 = H.rest := by rw [hH]; rfl
    rw [this]

theorem rxSt_take (o : Oracle) (s : St) : (rxSt o s).frame.take (o.rxData.take 255).length = o.rxData.take 255 := by
  simp [rxSt]

theorem handleDownlinkR_none (o : Oracle) {s : St} (h : Inv s) (hr : s.region.isSome = true) (err : Err) :
    handleDownlinkR E .none o s err = handleDownlink E o s err := by
  unfold handleDownlinkR handleDownlink
  split
  rotate_left
  · rfl
  have hl : (o.rxData.take 255).length ≤ 255 := by simp; omega
  simp only [blit_zero (dst := s.frame) (src := o.rxData.take 255) (by rw [h.frame]; exact hl)]
  have hinv : Inv (rxSt o s) := h.frameUpd (rxSt_frame o h.frame)
  have e := handleDataMsgR_none (E := E) o.bat hinv hr (rxPkt o) rfl (rxSt_take o s) hl
  unfold rxSt rxPkt at e
  simp only [orOob, bind, Except.bind]
  split
  · rfl
  · rw [e]

theorem macOnTxCompleteR_none (s : St) (t : U32) :
    macOnTxCompleteR E [] s t = (do let (m, ev) ← macOnTxComplete s.mac t; .ok ({ s with mac := m }, ev)) := by
  unfold macOnTxCompleteR macOnTxComplete
  by_cases hs : s.mac.saveDevTime = true
  · simp only [if_pos hs]
    cases hc : s.mac.cbs with
    | none => rfl
    | some c =>
      simp only
      by_cases hg : c.getTime = true
      · simp only [if_pos hg]; rfl
      · simp only [if_neg hg]; rfl
  · simp only [if_neg hs]; rfl

theorem evtHandlerR_none (o : Oracle) {s : St} (h : Inv s) (mask : Byte) :
    evtHandlerR E .none o s mask = evtHandler E o s mask := by
  have hi : ∀ p, s.phase ≠ .notInit → Inv { s with phase := p } := fun p hp => { h with region := fun _ => h.region hp }
  unfold evtHandlerR evtHandler
  cases hp : s.phase with
  | notInit => rfl
  | idle => rfl
  | tx =>
    simp only [evtTxR, evtTx]
    split
    · simp only [rx1Params_ok h, bind, Except.bind]
      have e := macOnTxCompleteR_none (E := E) { s with phase := .rx1, pp := rx1Pp s } o.devTime
      change macOnTxCompleteR E Inside.none.time _ _ = _ at e
      rw [e]
      simp only [bind, Except.bind]
      cases macOnTxComplete s.mac o.devTime <;> rfl
    · rfl
  | rx1 =>
    have hreg := h.region (by rw [hp]; decide)
    simp only [evtRx1R, evtRx1, handleDownlinkR_none o (hi .idle (by rw [hp]; decide)) hreg]
  | rx2 =>
    have hreg := h.region (by rw [hp]; decide)
    simp only [evtRx2R, evtRx2, handleDownlinkR_none o (hi .idle (by rw [hp]; decide)) hreg]

theorem stepR_none {s : St} (h : Inv s) (op : Op) : stepR E .none s op = step E s op := by
  unfold stepR
  split
  · next m o => simp only [step, evtHandlerR_none o h]
  · rfl

/-! ### What calls without a transmission leave alone -/

/-- The parts of the state that decide what is reported about the packet being handled. -/
structure Kept (s s' : St) : Prop where
  frame : s'.frame = s.frame
  devAddr : s'.session.devAddr = s.session.devAddr
  fCntDown : s'.session.fCntDown = s.session.fCntDown
  nwkSKey : s'.session.nwkSKey = s.session.nwkSKey
  appSKey : s'.session.appSKey = s.session.appSKey

theorem Kept.refl (s : St) : Kept s s := ⟨rfl, rfl, rfl, rfl, rfl⟩

theorem Kept.trans {a b c : St} (h : Kept a b) (h' : Kept b c) : Kept a c :=
  ⟨h'.frame.trans h.frame, h'.devAddr.trans h.devAddr, h'.fCntDown.trans h.fCntDown, h'.nwkSKey.trans h.nwkSKey,
    h'.appSKey.trans h.appSKey⟩

theorem MacFrame.kept {s s' : St} (h : MacFrame s s') : Kept s s' := ⟨h.frame, h.devAddr, h.fCntDown, h.nwkSKey, h.appSKey⟩

theorem call_kept {s s' : St} (h : Inv s) {op : Op} (hv : op.Call) (hm : op.Mild) {r : Ret} {ev : List Ev}
    (hs : step E s op = .ok (r, s', ev)) (ht : txs ev = []) : Kept s s' := by
  cases op with
  | event m o => exact absurd rfl (hv.2 m o)
  | init r => exact absurd rfl (hm.1 r)
  | setSession a u d n k => exact absurd rfl (hm.2 a u d n k)
  | send p l c n =>
    obtain ⟨e, -, hc⟩ := step_send h hs
    cases hc with
    | sent => rw [txs_sent] at ht; simp at ht
    | _ => exact .refl s
  | join a b =>
    obtain ⟨e, -, hc⟩ := step_join h hs
    cases hc with
    | sent => rw [txs_join] at ht; simp at ht
    | _ => exact .refl s
  | timer id =>
    simp only [step, Except.ok.injEq, Prod.mk.injEq] at hs
    rw [← hs.2.1]; unfold timerCallback; repeat' split
    all_goals exact .refl s
  | setRx2 f d =>
    simp only [step, Except.ok.injEq, Prod.mk.injEq] at hs
    rw [← hs.2.1]; exact (macFrame_setRx2 s f d).kept
  | setDr d =>
    simp only [step, Except.ok.injEq, Prod.mk.injEq] at hs
    rw [← hs.2.1]; unfold setDr; split <;> exact ⟨rfl, rfl, rfl, rfl, rfl⟩
  | setNbTrans d =>
    simp only [step, Except.ok.injEq, Prod.mk.injEq] at hs
    rw [← hs.2.1]; unfold setNbTrans setNbTransInt; simp only; repeat' split
    all_goals exact ⟨rfl, rfl, rfl, rfl, rfl⟩
  | setTxPower d =>
    simp only [step, Except.ok.injEq, Prod.mk.injEq] at hs
    rw [← hs.2.1]; unfold setTxPower setTxPowerInt; simp only; repeat' split
    all_goals exact ⟨rfl, rfl, rfl, rfl, rfl⟩
  | setRx1DrOffset d =>
    simp only [step, Except.ok.injEq, Prod.mk.injEq] at hs
    rw [← hs.2.1]; exact (macFrame_setRx1DrOffset s d).kept
  | setRx1Delay d =>
    simp only [step, Except.ok.injEq, Prod.mk.injEq] at hs
    rw [← hs.2.1]; exact (macFrame_setRx1Delay s d).kept
  | _ =>
    simp only [step, Except.ok.injEq, Prod.mk.injEq] at hs
    rw [← hs.2.1]; exact ⟨rfl, rfl, rfl, rfl, rfl⟩

theorem calls_kept : ∀ (ops : List Op) (s s' : St) (ev : List Ev), Inv s → s.region.isSome = true →
    (∀ op ∈ ops, op.Call ∧ op.Mild) → run E s ops = .ok (s', ev) → txs ev = [] → Kept s s'
  | [], s, s', ev, _, _, _, he, _ => by
    simp only [run, Except.ok.injEq, Prod.mk.injEq] at he
    rw [← he.1]; exact .refl s
  | op :: ops, s, s', ev, h, hr, hv, he, ht => by
    obtain ⟨r, s1, ev1, ev2, h1, h2, rfl⟩ := run_cons he
    rw [txs_append] at ht
    obtain ⟨ht1, ht2⟩ := List.append_eq_nil_iff.mp ht
    obtain ⟨hc, hm⟩ := hv op (by simp)
    obtain ⟨r', s1', ev1', h1', hi, hr', -⟩ := call_ok (E := E) h hr hc
    rw [h1] at h1'
    simp only [Except.ok.injEq, Prod.mk.injEq] at h1'
    rw [← h1'.2.1] at hi hr'
    exact (call_kept h hc hm h1 ht1).trans (calls_kept ops s1 s' ev2 hi hr' (fun o ho => hv o (by simp [ho])) h2 ht2)

theorem txs_cons_other {e : Ev} {l : List Ev} (h : ∀ d, e ≠ .tx d) (ht : txs (e :: l) = []) : txs l = [] := by
  unfold txs at ht ⊢
  cases e <;> simp_all

theorem runHandlerR_kept {s s' : St} (h : Inv s) (hr : s.region.isSome = true) {ops : List Op}
    (hv : ∀ op ∈ ops, op.Call ∧ op.Mild) (c : MacCommand) (hc : c ∈ macCommands) (pld : Bytes)
    (hl : c.pldSize ≤ pld.length) (bat : Byte) {b : Bool} {ev : List Ev}
    (he : runHandlerR E ops c.handler s pld bat = .ok (b, s', ev)) (ht : txs ev = []) : Kept s s' := by
  obtain ⟨b0, s0, ev0, e0, hi0, hf0⟩ := runHandler_ok h hr c hc pld hl bat
  obtain ⟨s1, ev1, h1, hi1, hr1, hq1⟩ := calls_ok (E := E) ops s h hr (fun op ho => (hv op ho).1)
  unfold runHandlerR at he
  split at he
  · unfold hLinkCheckR at he
    repeat' split at he
    · rw [h1] at he
      simp only [bind, Except.bind, Except.ok.injEq, Prod.mk.injEq] at he
      rw [← he.2.1]
      rw [← he.2.2] at ht
      exact calls_kept ops s s1 ev1 h hr hv h1 (txs_cons_other (fun _ => by simp) ht)
    · simp at he
    all_goals
      simp only [Except.ok.injEq, Prod.mk.injEq] at he
      rw [← he.2.1]; exact .refl s
  · unfold hDevStatusR at he
    simp only at he
    repeat' split at he
    · rw [h1] at he
      simp only [bind, Except.bind, Except.ok.injEq, Prod.mk.injEq] at he
      rw [← he.2.1]
      rw [← he.2.2] at ht
      exact (calls_kept ops s s1 ev1 h hr hv h1 (txs_cons_other (fun _ => by simp) ht)).trans (macFrame_enqueue ..).kept
    all_goals
      simp only [Except.ok.injEq, Prod.mk.injEq] at he
      rw [← he.2.1]; exact (macFrame_enqueue ..).kept
  · unfold hDeviceTimeR at he
    repeat' split at he
    · rw [h1] at he
      simp only [bind, Except.bind, Except.ok.injEq, Prod.mk.injEq] at he
      rw [← he.2.1]
      rw [← he.2.2, txs_append] at ht
      exact calls_kept ops s s1 ev1 h hr hv h1 (txs_cons_other (fun _ => by simp) (List.append_eq_nil_iff.mp ht).2)
    · simp at he
    all_goals
      simp only [Except.ok.injEq, Prod.mk.injEq] at he
      rw [← he.2.1]; exact .refl s
  · rw [e0] at he
    simp only [Except.ok.injEq, Prod.mk.injEq] at he
    rw [← he.2.1]; exact hf0.kept

theorem macLoopR_kept {A : Inside} (ha : A.Valid) (hm : A.Mild) (bat : Nat → Byte) : ∀ (n : Nat) (s s' : St) (off len : Nat)
    (ev : List Ev), off + len ≤ 255 → Inv s → s.region.isSome = true →
    macLoopR E A bat n s off len = .ok (s', ev) → txs ev = [] → Kept s s'
  | n, s, s', off, 0, ev, _, _, _, he, _ => by
    have : macLoopR E A bat n s off 0 = .ok (s, []) := by cases n <;> rfl
    rw [this] at he
    simp only [Except.ok.injEq, Prod.mk.injEq] at he
    rw [← he.1]; exact .refl s
  | 0, _, _, _, _ + 1, _, _, _, _, he, _ => by simp [macLoopR] at he
  | n + 1, s, s', off, len + 1, ev, hb, h, hr, he, ht => by
    rw [macLoopR] at he
    have hlen : (s.frame.drop off).length = 255 - off := by simp [h.frame]
    split at he
    · simp at he
    next cid more hx =>
    rw [hx] at hlen
    split at he
    · simp only [Except.ok.injEq, Prod.mk.injEq] at he
      rw [← he.1]; exact .refl s
    next c hf =>
    split at he
    · next hsz =>
      have hcm := List.mem_of_find?_eq_some hf
      have hml : c.pldSize ≤ (more.take len).length := by simp at hlen ⊢; omega
      obtain ⟨b, s1, ev1, e1, hi1, hr1, -⟩ := runHandlerR_ok (E := E) h hr (ha.1 len) c hcm (more.take len) hml (bat len)
      have kept1 := fun h1 => runHandlerR_kept (E := E) h hr (fun op ho => ⟨ha.1 len op ho, hm len op ho⟩) c hcm (more.take len)
        hml (bat len) e1 h1
      rw [e1] at he
      simp only [bind, Except.bind] at he
      cases b with
      | false =>
        simp only [Bool.false_eq_true, ↓reduceIte, Except.ok.injEq, Prod.mk.injEq] at he
        rw [← he.1]; rw [← he.2] at ht; exact kept1 ht
      | true =>
        simp only [↓reduceIte] at he
        split at he
        · simp at he
        · next x hx2 =>
          simp only [Except.ok.injEq, Prod.mk.injEq] at he
          rw [← he.2, txs_append] at ht
          obtain ⟨t1, t2⟩ := List.append_eq_nil_iff.mp ht
          rw [← he.1]
          exact (kept1 t1).trans (macLoopR_kept ha hm bat n s1 x.1 _ _ x.2 (by omega) hi1 hr1 hx2 t2)
    · simp only [Except.ok.injEq, Prod.mk.injEq] at he
      rw [← he.1]; exact .refl s

theorem dataFinish_same {s1 s2 a b : St} (h : Kept s1 s2) (pkt : DlPkt) (x : Option Bytes) (buf : Bytes) (off : Nat)
    {e1 e2 : Err} {p1 p2 : DlPkt} {v1 v2 : List Ev} (h1 : dataFinish E s1 pkt x buf off = .ok (e1, a, p1, v1))
    (h2 : dataFinish E s2 pkt x buf off = .ok (e2, b, p2, v2)) : e1 = e2 ∧ p1 = p2 := by
  unfold dataFinish at h1 h2
  simp only [h.nwkSKey, h.appSKey, h.frame, calcMic_congr E h.devAddr h.fCntDown, encryptPayload_congr E h.devAddr h.fCntDown] at h1 h2
  split at h1
  · next hm =>
    rw [if_pos hm] at h2
    simp only [Except.ok.injEq, Prod.mk.injEq] at h1 h2
    exact ⟨h1.1.symm.trans h2.1, h1.2.2.1.symm.trans h2.2.2.1⟩
  · next hm =>
    rw [if_neg hm] at h2
    split at h1
    · simp only [bind, Except.bind] at h1 h2
      split at h1
      · simp at h1
      · next fr hfr =>
        rw [hfr] at h2
        simp only [Except.ok.injEq, Prod.mk.injEq] at h1 h2
        exact ⟨h1.1.symm.trans h2.1, h1.2.2.1.symm.trans h2.2.2.1⟩
    · simp only [Except.ok.injEq, Prod.mk.injEq] at h1
      split at h2
      · simp_all
      · simp only [Except.ok.injEq, Prod.mk.injEq] at h2
        exact ⟨h1.1.symm.trans h2.1, h1.2.2.1.symm.trans h2.2.2.1⟩

theorem dataCmdsR_kept {A : Inside} (ha : A.Valid) (hm : A.Mild) (bat : Nat → Byte) {s s' : St} {fo : Nat} {ev : List Ev}
    (hb : 8 + fo ≤ 255) (h : Inv s) (hr : s.region.isSome = true) (he : dataCmdsR E A bat s fo = .ok (s', ev))
    (ht : txs ev = []) : Kept s s' := by
  unfold dataCmdsR at he
  split at he
  · exact macLoopR_kept ha hm bat fo s s' 8 fo ev hb h hr he ht
  · simp only [Except.ok.injEq, Prod.mk.injEq] at he
    rw [← he.1]; exact .refl s

theorem Inside.none_valid : Inside.none.Valid := ⟨fun _ op h => by simp [Inside.none] at h, fun op h => by simp [Inside.none] at h⟩
theorem Inside.none_mild : Inside.none.Mild := fun _ op h => by simp [Inside.none] at h

theorem dataBodyR_parts {A : Inside} {bat : Nat → Byte} {s s' : St} {pkt p : DlPkt} {size fo : Nat} {e : Err} {ev : List Ev}
    (he : dataBodyR E A bat s pkt size fo = .ok (e, s', p, ev)) :
    ∃ s1 ev1 p1 x ev2, dataCmdsR E A bat { s with snr := pkt.snr } fo = .ok (s1, ev1) ∧
      dataTail pkt (size - (12 + fo)) ((s1.frame.take size).drop (8 + fo)) = .ok (p1, x) ∧
      dataFinish E s1 p1 x (s1.frame.take size) (8 + fo + 1) = .ok (e, s', p, ev2) ∧ ev = ev1 ++ ev2 := by
  unfold dataBodyR at he
  simp only [bind, Except.bind] at he
  split at he
  · simp at he
  next a ha =>
  split at he
  · simp at he
  next b hb =>
  split at he
  · simp at he
  next c hc =>
  simp only [Except.ok.injEq, Prod.mk.injEq] at he
  exact ⟨a.1, a.2, b.1, b.2, c.2.2.2, ha, hb, by rw [hc, ← he.1, ← he.2.1, ← he.2.2.1], he.2.2.2.symm⟩

theorem dataCmdsR_none_txs {bat : Nat → Byte} {s s' : St} {fo : Nat} {ev : List Ev} (hb : 8 + fo ≤ 255) (h : Inv s)
    (hr : s.region.isSome = true) (he : dataCmdsR E .none bat s fo = .ok (s', ev)) : txs ev = [] := by
  unfold dataCmdsR at he
  split at he
  · rw [macLoopR_none bat fo s 8 fo h hr hb] at he
    exact txs_quiet (macLoop_quiet bat _ _ _ _ _ he)
  · simp only [Except.ok.injEq, Prod.mk.injEq] at he
    rw [← he.2]; rfl

theorem dataBodyR_same {A : Inside} (ha : A.Valid) (hm : A.Mild) (bat : Nat → Byte) {s a b : St} (h : Inv s)
    (hr : s.region.isSome = true) (pkt : DlPkt) {size fo : Nat} (hb : 8 + fo ≤ 255) {e1 e2 : Err} {p1 p2 : DlPkt}
    {v1 v2 : List Ev} (h1 : dataBodyR E A bat s pkt size fo = .ok (e1, a, p1, v1)) (ht : txs v1 = [])
    (h2 : dataBodyR E .none bat s pkt size fo = .ok (e2, b, p2, v2)) : e1 = e2 ∧ p1 = p2 := by
  have hi : Inv { s with snr := pkt.snr } := { h with }
  obtain ⟨s1, w1, q1, x1, u1, c1, t1, f1, rfl⟩ := dataBodyR_parts h1
  obtain ⟨s2, w2, q2, x2, u2, c2, t2, f2, rfl⟩ := dataBodyR_parts h2
  rw [txs_append] at ht
  have k1 := dataCmdsR_kept ha hm bat hb hi hr c1 (List.append_eq_nil_iff.mp ht).1
  have k2 := dataCmdsR_kept Inside.none_valid Inside.none_mild bat hb hi hr c2 (dataCmdsR_none_txs hb hi hr c2)
  have k : Kept s1 s2 := ⟨k2.frame.trans k1.frame.symm, k2.devAddr.trans k1.devAddr.symm, k2.fCntDown.trans k1.fCntDown.symm,
    k2.nwkSKey.trans k1.nwkSKey.symm, k2.appSKey.trans k1.appSKey.symm⟩
  rw [k.frame, t1] at t2
  simp only [Except.ok.injEq, Prod.mk.injEq] at t2
  rw [k.frame, ← t2.1, ← t2.2] at f2
  exact dataFinish_same k q1 x1 _ _ f1 f2

theorem handleDataMsgR_same {A : Inside} (ha : A.Valid) (hm : A.Mild) (bat : Nat → Byte) {s a b : St} (h : Inv s)
    (hr : s.region.isSome = true) (pkt : DlPkt) {buf : Bytes} (hp : pkt.data = some buf) (hl : buf.length ≤ 255) {e1 e2 : Err}
    {p1 p2 : DlPkt} {v1 v2 : List Ev} (h1 : handleDataMsgR E A bat s pkt = .ok (e1, a, p1, v1)) (ht : txs v1 = [])
    (h2 : handleDataMsgR E .none bat s pkt = .ok (e2, b, p2, v2)) : e1 = e2 ∧ p1 = p2 := by
  rcases handleDataMsgR_split (E := E) bat h pkt buf hp with ⟨e, s', p, ev, hA, -⟩ | ⟨H, d, hH, hf, hA, -⟩
  · rw [hA] at h1 h2
    simp only [Except.ok.injEq, Prod.mk.injEq] at h1 h2
    exact ⟨h1.1.symm.trans h2.1, h1.2.2.1.symm.trans h2.2.2.1⟩
  · have hmk := h.mark H
    have hc : Inv (H.counted s d) := { hmk with }
    have hcr : (H.counted s d).region.isSome = true := by show (H.mark s).region.isSome = true; rw [mark_region]; exact hr
    rw [hA] at h1 h2
    simp only [bind, Except.bind] at h1 h2
    split at h1
    · simp at h1
    next x hx =>
    split at h2
    · simp at h2
    next y hy =>
    simp only [Except.ok.injEq, Prod.mk.injEq] at h1 h2
    rw [← h1.2.2.2, txs_append] at ht
    have := dataBodyR_same ha hm bat hc hcr pkt (by omega) (hx.trans (by rfl)) (List.append_eq_nil_iff.mp ht).2 (hy.trans (by rfl))
    exact ⟨h1.1.symm.trans (this.1.trans h2.1), h1.2.2.1.symm.trans (this.2.trans h2.2.2.1)⟩

theorem handleDownlinkR_same {A : Inside} (ha : A.Valid) (hm : A.Mild) (o : Oracle) {s a b : St} (h : Inv s)
    (hr : s.region.isSome = true) (err : Err) {v1 v2 : List Ev} (h1 : handleDownlinkR E A o s err = .ok (a, v1))
    (ht : txs v1 = []) (h2 : handleDownlinkR E .none o s err = .ok (b, v2)) : results v1 = results v2 := by
  unfold handleDownlinkR at h1 h2
  split at h1
  rotate_left
  · next he =>
    rw [if_neg he] at h2
    simp only [Except.ok.injEq, Prod.mk.injEq] at h1 h2
    rw [← h1.2, ← h2.2]
  next he =>
  rw [if_pos he] at h2
  have hl : (o.rxData.take 255).length ≤ 255 := by simp; omega
  simp only [blit_zero (dst := s.frame) (src := o.rxData.take 255) (by rw [h.frame]; exact hl), orOob, bind, Except.bind] at h1 h2
  have hinv : Inv (rxSt o s) := h.frameUpd (rxSt_frame o h.frame)
  split at h1
  · simp at h1
  next hd hhd =>
  rw [hhd] at h2
  simp only at h2
  by_cases hj : s.joinState = true
  · simp only [if_pos hj] at h1 h2
    rw [h1] at h2
    simp only [Except.ok.injEq, Prod.mk.injEq] at h2
    rw [h2.2]
  · simp only [if_neg hj] at h1 h2
    obtain ⟨e1, s1, p1, w1, q1, -, -, r1⟩ := handleDataMsgR_ok (E := E) ha o.bat hinv hr (rxPkt o) (o.rxData.take 255) rfl hl
    obtain ⟨e2, s2, p2, w2, q2, -, -, r2⟩ := handleDataMsgR_ok (E := E) Inside.none_valid o.bat hinv hr (rxPkt o) (o.rxData.take 255) rfl hl
    have same := fun t => handleDataMsgR_same ha hm o.bat hinv hr (rxPkt o) rfl hl q1 t q2
    unfold rxSt rxPkt at q1 q2
    rw [q1] at h1
    rw [q2] at h2
    simp only [Except.ok.injEq, Prod.mk.injEq] at h1 h2
    rw [← h1.2] at ht ⊢
    rw [← h2.2]
    have ht1 : txs w1 = [] := by
      simp only [txs_append] at ht
      exact (List.append_eq_nil_iff.mp (List.append_eq_nil_iff.mp ht).1).2
    obtain ⟨e, p⟩ := same ht1
    simp only [results_append, r1, r2, e, p]

theorem evtHandlerR_same {A : Inside} (ha : A.Valid) (hm : A.Mild) (o : Oracle) {s a b : St} (h : Inv s) (mask : Byte)
    {v1 v2 : List Ev} (h1 : evtHandlerR E A o s mask = .ok (a, v1)) (ht : txs v1 = [])
    (h2 : evtHandlerR E .none o s mask = .ok (b, v2)) : results v1 = results v2 := by
  have hi : ∀ p, s.phase ≠ .notInit → Inv { s with phase := p } := fun p hp => { h with region := fun _ => h.region hp }
  unfold evtHandlerR at h1 h2
  cases hp : s.phase with
  | notInit =>
    rw [hp] at h1 h2
    simp only [Except.ok.injEq, Prod.mk.injEq] at h1 h2
    rw [← h1.2, ← h2.2]
  | idle =>
    rw [hp] at h1 h2
    simp only [Except.ok.injEq, Prod.mk.injEq] at h1 h2
    rw [← h1.2, ← h2.2]
  | tx =>
    have hreg := h.region (by rw [hp]; decide)
    have hi1 := hi .rx1 (by rw [hp]; decide)
    have key : ∀ (B : Inside) (c : St) (v : List Ev), B.Valid → evtTxR E B o s mask = .ok (c, v) → results v = [] := by
      intro B c v hB hv
      unfold evtTxR at hv
      split at hv
      · simp only [rx1Params_ok h, bind, Except.bind] at hv
        rcases macOnTxCompleteR_ok (E := E) hB.2 (s := { s with phase := .rx1, pp := rx1Pp s }) { hi1 with } hreg o.devTime with
          ⟨s', ev, e, -, hq⟩ | ⟨-, -, e⟩
        · rw [e] at hv
          simp only [Except.ok.injEq, Prod.mk.injEq] at hv
          rw [← hv.2, results_append, hq]; rfl
        · rw [e] at hv; simp at hv
      · simp only [Except.ok.injEq, Prod.mk.injEq] at hv
        rw [← hv.2]; rfl
    rw [hp] at h1 h2
    rw [key A a v1 ha h1, key .none b v2 Inside.none_valid h2]
  | rx1 =>
    have hreg := h.region (by rw [hp]; decide)
    have hii := hi .idle (by rw [hp]; decide)
    rw [hp] at h1 h2
    simp only [evtRx1R] at h1 h2
    split at h1
    · next ht1 =>
      rw [if_pos ht1, h1] at h2
      simp only [Except.ok.injEq, Prod.mk.injEq] at h2
      rw [h2.2]
    · next ht1 =>
      rw [if_neg ht1] at h2
      split at h1
      · next hd =>
        rw [if_pos hd] at h2
        simp only [bind, Except.bind] at h1 h2
        split at h1
        · simp at h1
        next x hx =>
        split at h2
        · simp at h2
        next y hy =>
        simp only [Except.ok.injEq, Prod.mk.injEq] at h1 h2
        rw [← h1.2] at ht ⊢
        rw [← h2.2]
        exact handleDownlinkR_same (v1 := x.2) (v2 := y.2) ha hm o hii hreg _ hx ht hy
      · next hd =>
        rw [if_neg hd, h1] at h2
        simp only [Except.ok.injEq, Prod.mk.injEq] at h2
        rw [h2.2]
  | rx2 =>
    have hreg := h.region (by rw [hp]; decide)
    have hii := hi .idle (by rw [hp]; decide)
    rw [hp] at h1 h2
    simp only [evtRx2R] at h1 h2
    split at h1
    · next ht1 =>
      rw [if_pos ht1] at h2
      exact handleDownlinkR_same ha hm o hii hreg _ h1 ht h2
    · next ht1 =>
      rw [if_neg ht1] at h2
      split at h1
      · next hd =>
        rw [if_pos hd] at h2
        exact handleDownlinkR_same ha hm o hii hreg _ h1 ht h2
      · next hd =>
        rw [if_neg hd, h1] at h2
        simp only [Except.ok.injEq, Prod.mk.injEq] at h2
        rw [h2.2]

/-! ### Calls inside `get_device_time` -/

/-- The state with another stored time stamp. -/
def St.stamped (s : St) (t : U32) : St := { s with mac := { s.mac with devTime := t } }

theorem adrHandleUplink_stamped (s : St) (t : U32) : adrHandleUplink (s.stamped t) = (adrHandleUplink s).stamped t := by
  unfold adrHandleUplink St.stamped
  simp only
  split <;> rfl

theorem macGetPayload_stamped (m : Mac) (t : U32) (n : Nat) :
    macGetPayload { m with devTime := t } n = ((macGetPayload m n).1, { (macGetPayload m n).2 with devTime := t }) := by
  unfold macGetPayload
  simp only
  split <;> rfl

theorem macEnqueue_stamped (m : Mac) (t : U32) (a : Byte) (l : Bytes) :
    macEnqueue { m with devTime := t } a l = ((macEnqueue m a l).1, { (macEnqueue m a l).2 with devTime := t }) := by
  unfold macEnqueue
  simp only
  split <;> rfl

theorem buildUplink_stamped (s : St) (t : U32) (p : Byte) (l : Bytes) (c : Bool) :
    buildUplink E (s.stamped t) p l c = buildUplink E s p l c := by
  unfold buildUplink St.stamped
  simp only [macGetPayload_stamped]
  rfl

/-- No call reads or writes the stored time stamp. -/
theorem call_stamped (s : St) (t : U32) {op : Op} (hv : op.Call) :
    step E (s.stamped t) op = (step E s op).map (fun x => (x.1, x.2.1.stamped t, x.2.2)) := by
  cases op with
  | event m o => exact absurd rfl (hv.2 m o)
  | send p l c n =>
    simp only [step, sendFrame]
    by_cases hp : s.phase ≠ .idle
    · rw [if_pos hp, if_pos (show (s.stamped t).phase ≠ .idle from hp)]; rfl
    rw [if_neg hp, if_neg (show ¬(s.stamped t).phase ≠ .idle from hp)]
    show ((channelsGetNext s.chan n >>= _) >>= _) = Except.map _ ((channelsGetNext s.chan n >>= _) >>= _)
    cases channelsGetNext s.chan n with
    | error u => rfl
    | ok f =>
      simp only [bind, Except.bind]
      by_cases hf : f = 0
      · simp only [if_pos hf]; rfl
      simp only [if_neg hf]
      by_cases h1 : l.length > getMaxPayloadSize s
      · simp only [if_pos h1, if_pos (show l.length > getMaxPayloadSize (s.stamped t) from h1)]; rfl
      simp only [if_neg h1, if_neg (show ¬l.length > getMaxPayloadSize (s.stamped t) from h1)]
      by_cases h2 : l.length = 0 ∧ s.mac.queue.length = 0
      · simp only [if_pos h2, if_pos (show l.length = 0 ∧ (s.stamped t).mac.queue.length = 0 from h2)]; rfl
      simp only [if_neg h2, if_neg (show ¬(l.length = 0 ∧ (s.stamped t).mac.queue.length = 0) from h2)]
      rw [show currentDr (s.stamped t) = currentDr s from rfl]
      cases drTable (currentDr s) with
      | none => rfl
      | some d =>
        simp only [orOob]
        rw [show applyTxPower { s.stamped t with pp := { (s.stamped t).pp with sf := d.1, bw := d.2, invertedIq := false } } =
          applyTxPower { s with pp := { s.pp with sf := d.1, bw := d.2, invertedIq := false } } from rfl]
        cases applyTxPower { s with pp := { s.pp with sf := d.1, bw := d.2, invertedIq := false } } with
        | error u => rfl
        | ok evp =>
          simp only
          rw [show buildUplink E { s.stamped t with pp := { (s.stamped t).pp with sf := d.1, bw := d.2, invertedIq := false } } p l c =
            buildUplink E { s with pp := { s.pp with sf := d.1, bw := d.2, invertedIq := false } } p l c
              from buildUplink_stamped
                { s with pp := { s.pp with sf := d.1, bw := d.2, invertedIq := false } } t p l c]
          rw [show (s.stamped t).frame = s.frame from rfl]
          cases blit s.frame 0 (buildUplink E { s with pp := { s.pp with sf := d.1, bw := d.2, invertedIq := false } } p l c).1 with
          | none => rfl
          | some fr =>
            simp only [show (macGetPayload (s.stamped t).mac 15).2 = { (macGetPayload s.mac 15).2 with devTime := t } from
              congrArg Prod.snd (macGetPayload_stamped s.mac t 15)]
            have ha : ∀ (a b : St), a = b.stamped t → adrHandleUplink a = (adrHandleUplink b).stamped t := by
              rintro _ b rfl
              exact adrHandleUplink_stamped b t
            simp only [Except.map]
            refine congrArg Except.ok (Prod.ext rfl (Prod.ext ?_ rfl))
            simp only
            exact ha _ _ rfl
  | join a b =>
    simp only [step, uwanJoin]
    by_cases hp : s.phase ≠ .idle
    · rw [if_pos hp, if_pos (show (s.stamped t).phase ≠ .idle from hp)]; rfl
    rw [if_neg hp, if_neg (show ¬(s.stamped t).phase ≠ .idle from hp)]
    show ((channelsGetNext s.chan a >>= _) >>= _) = Except.map _ ((channelsGetNext s.chan a >>= _) >>= _)
    cases channelsGetNext s.chan a with
    | error u => rfl
    | ok f =>
      simp only [bind, Except.bind]
      by_cases hf : f = 0
      · simp only [if_pos hf]; rfl
      simp only [if_neg hf]
      rw [show drTable (s.stamped t).defaultDr = drTable s.defaultDr from rfl]
      cases drTable s.defaultDr with
      | none => rfl
      | some d =>
        simp only [orOob]
        rw [show applyTxPower { s.stamped t with pp := { (s.stamped t).pp with sf := d.1, bw := d.2, invertedIq := false } } =
          applyTxPower { s with pp := { s.pp with sf := d.1, bw := d.2, invertedIq := false } } from rfl]
        cases applyTxPower { s with pp := { s.pp with sf := d.1, bw := d.2, invertedIq := false } } with
        | error u => rfl
        | ok evp =>
          simp only
          rw [show buildJoin E { s.stamped t with pp := { (s.stamped t).pp with sf := d.1, bw := d.2, invertedIq := false } }
              (BitVec.ofNat 32 (b % 65536)) =
            buildJoin E { s with pp := { s.pp with sf := d.1, bw := d.2, invertedIq := false } } (BitVec.ofNat 32 (b % 65536)) from rfl]
          rw [show (s.stamped t).frame = s.frame from rfl]
          cases blit s.frame 0 (buildJoin E { s with pp := { s.pp with sf := d.1, bw := d.2, invertedIq := false } }
            (BitVec.ofNat 32 (b % 65536))).1 with
          | none => rfl
          | some fr => rfl
  | init r =>
    simp only [step, Except.map, uwanInit_eq]; rfl
  | setRx2 f d => simp only [step, St.stamped, setRx2, Except.map]; repeat' split
                  all_goals rfl
  | timer id =>
    simp only [step, timerCallback, Except.map]
    rw [show (s.stamped t).phase = s.phase from rfl]
    by_cases h1 : s.phase = .rx1 ∧ id = .rx1
    · simp only [if_pos h1]
    simp only [if_neg h1]
    by_cases h2 : s.phase = .rx2 ∧ id = .rx2
    · simp only [if_pos h2]
    simp only [if_neg h2]
  | setDr d => simp only [step, St.stamped, setDr, Except.map]; repeat' split
               all_goals rfl
  | setNbTrans d => simp only [step, St.stamped, setNbTrans, setNbTransInt, Except.map]; repeat' split
                    all_goals rfl
  | setTxPower d => simp only [step, St.stamped, setTxPower, setTxPowerInt, Except.map]; repeat' split
                    all_goals rfl
  | setRx1DrOffset d => simp only [step, St.stamped, setRx1DrOffset, Except.map]; repeat' split
                        all_goals rfl
  | setRx1Delay d => simp only [step, St.stamped, setRx1Delay, Except.map]; repeat' split
                     all_goals rfl
  | linkCheckReq => simp only [step, St.stamped, St.enqueue, macEnqueue_stamped, Except.map]
  | deviceTimeReq =>
    simp only [step, St.stamped, macDeviceTimeReq, macEnqueue_stamped, Except.map]
  | _ => rfl

theorem calls_stamped (t : U32) : ∀ (ops : List Op) (s : St), (∀ op ∈ ops, op.Call) →
    run E (s.stamped t) ops = (run E s ops).map (fun x => (x.1.stamped t, x.2))
  | [], s, _ => rfl
  | op :: ops, s, hv => by
    simp only [run]
    rw [call_stamped s t (hv op (by simp))]
    cases hs : step E s op with
    | error u => rfl
    | ok x =>
      simp only [Except.map, bind, Except.bind]
      rw [calls_stamped t ops x.2.1 (fun o ho => hv o (by simp [ho]))]
      cases run E x.2.1 ops <;> rfl

end Uwan
