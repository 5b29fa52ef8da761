import Verif.Lemmas.Exchange

/-!
# What a step does not depend on

The contents of the frame buffer are written before they are read in every operation, and the packet parameters matter only
between a transmission and its first window. `put f p s` is `s` with another buffer and other packet parameters.
-/

namespace Uwan
open Spec

variable {E : Env}

/-- `s` with frame buffer `f` and packet parameters `p`. -/
def put (f : Bytes) (p : PktParams) (s : St) : St := { s with frame := f, pp := p }

variable {f : Bytes} {p : PktParams}

theorem put_enqueue (s : St) (cid : Byte) (data : Bytes) :
    (put f p s).enqueue cid data = ((s.enqueue cid data).1, put f p (s.enqueue cid data).2) := rfl

theorem put_linkAdrApply (s : St) (a : Byte) (m : U16) (r : Byte) :
    linkAdrApply (put f p s) a m r = put f p (linkAdrApply s a m r) := by
  unfold linkAdrApply linkAdrNbTrans setNbTransInt setTxPowerInt resetNbTrans put
  simp only
  split <;> split <;> rfl

theorem put_rxParamApply (s : St) (a b : Byte) (g : U32) : rxParamApply (put f p s) a b g = put f p (rxParamApply s a b g) := by
  unfold rxParamApply setRx2 setRx1DrOffset put
  simp only
  split <;> split <;> (try split) <;> rfl

theorem put_handler (h : MacHandler) {s s' : St} {pld : Bytes} {bat : Byte} {b : Bool} {ev : List Ev}
    (hs : runHandler h s pld bat = .ok (b, s', ev)) : runHandler h (put f p s) pld bat = .ok (b, put f p s', ev) := by
  cases h with
  | linkCheck =>
    simp only [runHandler, hLinkCheck] at hs ⊢
    show (match s.mac.cbs with | some cbs => _ | none => _) = _
    split at hs
    · split at hs
      · split at hs
        · cases hs; simp_all
        · cases hs
      · cases hs; simp_all
    · cases hs; simp_all
  | linkAdr =>
    simp only [runHandler, hLinkAdr] at hs ⊢
    split at hs
    · cases hs
    · next rg a b c d t hr =>
      cases hs
      have : (put f p s).region = some rg := hr
      rw [this]
      simp only [adrHandleLinkReq, put_linkAdrApply]
      have e : linkAdrStatus (put f p s) a (or16 b c) d = linkAdrStatus s a (or16 b c) d := rfl
      rw [e]
      split <;> rfl
    · cases hs
  | dutyCycle => cases hs; rfl
  | rxParamSetup =>
    simp only [runHandler, hRxParamSetup] at hs ⊢
    split at hs
    · cases hs
      simp only [put_rxParamApply]
      split <;> rfl
    · cases hs
  | devStatus =>
    simp only [runHandler, hDevStatus] at hs ⊢
    show (match s.mac.cbs with | some cbs => _ | none => _) = _
    split at hs
    · split at hs <;> cases hs <;> simp_all <;> exact ⟨rfl, rfl⟩
    · cases hs; simp_all; exact ⟨rfl, rfl⟩
  | newChannel =>
    simp only [runHandler, hNewChannel] at hs ⊢
    split at hs
    · cases hs; rfl
    · cases hs
  | rxTimingSetup =>
    simp only [runHandler, hRxTimingSetup] at hs ⊢
    split at hs
    · cases hs
      simp only [setRx1Delay]
      split <;> split <;> first | rfl | contradiction
    · cases hs
  | txParamSetup => cases hs; rfl
  | diChannel => cases hs; rfl
  | deviceTime =>
    simp only [runHandler, hDeviceTime] at hs ⊢
    show (match s.mac.cbs with | some cbs => _ | none => _) = _
    split at hs
    · split at hs
      · split at hs
        · cases hs; simp_all; rfl
        · cases hs
      · cases hs; simp_all
    · cases hs; simp_all

theorem put_loop (bat : Nat → Byte) : ∀ (n : Nat) {s s' : St} {l : Bytes} {ev : List Ev}, macLoop bat n s l = .ok (s', ev) →
    macLoop bat n (put f p s) l = .ok (put f p s', ev)
  | _, _, _, [], _, h => by cases ‹Nat› <;> (cases h; rfl)
  | 0, _, _, _ :: _, _, h => by cases h
  | n + 1, s, s', cid :: rest, ev, h => by
    unfold macLoop at h ⊢
    split at h
    · cases h; rfl
    · next c hc =>
      simp only
      split at h
      · next hl =>
        rw [if_pos hl]
        cases hr : runHandler c.handler s rest (bat rest.length) with
        | error u => rw [hr] at h; cases h
        | ok x =>
          obtain ⟨b, s1, e1⟩ := x
          rw [hr] at h
          rw [put_handler c.handler hr]
          simp only [bind, Except.bind] at h ⊢
          split at h
          · next hb =>
            simp only [hb, if_true]
            cases hm : macLoop bat n s1 (rest.drop c.pldSize) with
            | error u => rw [hm] at h; cases h
            | ok y =>
              obtain ⟨s2, e2⟩ := y
              rw [hm] at h
              rw [put_loop bat n hm]
              cases h; rfl
          · next hb =>
            cases h
            simp only [hb]; rfl
      · next hl =>
        cases h
        rw [if_neg hl]

/-! ### Packets -/

theorem put_dataFinish {s s' : St} {pk pk' : DlPkt} {pld : Option Bytes} {buf : Bytes} {off : Nat} {e : Err} {ev : List Ev}
    (hl : f.length = s.frame.length) (h : dataFinish E s pk pld buf off = .ok (e, s', pk', ev)) :
    ∃ f', f'.length = s'.frame.length ∧ s'.pp = s.pp ∧ dataFinish E (put f p s) pk pld buf off = .ok (e, put f' p s', pk', ev) := by
  unfold dataFinish at h ⊢
  simp only at h ⊢
  show ∃ f', _ ∧ _ ∧ (if buf.drop (buf.length - 4) ≠ (calcMic E s.session (buf.take (buf.length - 4)) s.session.nwkSKey 1 true).1 then _ else _) = _
  split at h
  · next hm => cases h; exact ⟨f, hl, rfl, by rw [if_pos hm]; rfl⟩
  · next hm =>
    rw [if_neg hm]
    split at h
    · next b l =>
      have hsess : (put f p s).session = s.session := rfl
      have hfr : (put f p s).frame = f := rfl
      rw [hsess, hfr]
      generalize (if pk.fPort = 0 then s.session.nwkSKey else s.session.appSKey) = key at h ⊢
      unfold blit at h ⊢
      rw [hl]
      by_cases hb : off + (encryptPayload E s.session (b :: l) key 1).1.length ≤ s.frame.length
      · rw [if_pos hb] at h ⊢
        cases h
        refine ⟨_, ?_, rfl, rfl⟩
        simp [hl, adrHandleDownlink]
      · rw [if_neg hb] at h
        cases h
    · next hn =>
      cases h
      refine ⟨f, hl, rfl, ?_⟩
      rfl

theorem loop_frame {bat : Nat → Byte} {n : Nat} {s s' : St} {l : Bytes} {ev : List Ev} (h : macLoop bat n s l = .ok (s', ev)) :
    s'.frame = s.frame ∧ s'.pp = s.pp := by
  have := put_loop (f := s.frame) (p := s.pp) bat n h
  rw [show put s.frame s.pp s = s from rfl, h] at this
  injection this with this
  injection this with this
  exact ⟨by rw [this]; rfl, by rw [this]; rfl⟩

theorem put_dataCmds {bat : Nat → Byte} {s s' : St} {fo : Nat} {l : Bytes} {ev : List Ev} (h : dataCmds bat s fo l = .ok (s', ev)) :
    dataCmds bat (put f p s) fo l = .ok (put f p s', ev) ∧ s'.frame = s.frame ∧ s'.pp = s.pp := by
  unfold dataCmds at h ⊢
  split at h
  · next hf => rw [if_pos hf]; exact ⟨put_loop bat _ h, loop_frame h⟩
  · next hf => rw [if_neg hf]; cases h; exact ⟨rfl, rfl, rfl⟩

theorem put_dataBody {bat : Nat → Byte} {s s' : St} {pk pk' : DlPkt} {buf rest : Bytes} {fo : Nat} {e : Err} {ev : List Ev}
    (hl : f.length = s.frame.length) (h : dataBody E bat s pk buf rest fo = .ok (e, s', pk', ev)) :
    ∃ f', f'.length = s'.frame.length ∧ s'.pp = s.pp ∧ dataBody E bat (put f p s) pk buf rest fo = .ok (e, put f' p s', pk', ev) := by
  unfold dataBody at h ⊢
  simp only [bind, Except.bind] at h ⊢
  cases h1 : dataCmds bat { s with snr := pk.snr } fo rest with
  | error u => rw [h1] at h; cases h
  | ok x =>
    obtain ⟨s1, e1⟩ := x
    rw [h1] at h
    obtain ⟨k1, k2, k3⟩ := put_dataCmds (f := f) (p := p) h1
    rw [show dataCmds bat { put f p s with snr := pk.snr } fo rest = .ok (put f p s1, e1) from k1]
    simp only at h ⊢
    cases h2 : dataTail pk (buf.length - (12 + fo)) (rest.drop fo) with
    | error u => rw [h2] at h; cases h
    | ok y =>
      obtain ⟨pk2, pld⟩ := y
      rw [h2] at h
      simp only at h ⊢
      cases h3 : dataFinish E s1 pk2 pld buf (8 + fo + 1) with
      | error u => rw [h3] at h; cases h
      | ok z =>
        obtain ⟨e2, s2, pk3, ev2⟩ := z
        rw [h3] at h
        cases h
        obtain ⟨f', m1, m2, m3⟩ := put_dataFinish (f := f) (p := p) (by rw [hl, k2]) h3
        refine ⟨f', m1, m2.trans k3, ?_⟩
        rw [m3]

theorem put_handleData {bat : Nat → Byte} {s s' : St} {pk pk' : DlPkt} {e : Err} {ev : List Ev}
    (hl : f.length = s.frame.length) (h : handleDataMsg E bat s pk = .ok (e, s', pk', ev)) :
    ∃ f', f'.length = s'.frame.length ∧ s'.pp = s.pp ∧ handleDataMsg E bat (put f p s) pk = .ok (e, put f' p s', pk', ev) := by
  unfold handleDataMsg at h ⊢
  split at h
  · cases h
  · next buf hb =>
    split at h
    · next c => cases h; exact ⟨f, hl, rfl, by rw [if_pos c]⟩
    · next c =>
      rw [if_neg c]
      split at h
      · next _ mhdr a0 a1 a2 a3 fctrl c0 c1 rest =>
        simp only at h ⊢
        split at h
        · next c => cases h; exact ⟨f, hl, rfl, by rw [if_pos c]⟩
        · next c =>
          rw [if_neg c]
          split at h
          · next c => cases h; exact ⟨f, hl, rfl, by rw [if_pos c]⟩
          · next c =>
            rw [if_neg c]
            have hm : markAck (put f p s) ((mhdr >>> 5) &&& 7) = put f p (markAck s ((mhdr >>> 5) &&& 7)) := by
              unfold markAck; split <;> rfl
            have hfr : (markAck s ((mhdr >>> 5) &&& 7)).frame = s.frame := by unfold markAck; split <;> rfl
            have hpp : (markAck s ((mhdr >>> 5) &&& 7)).pp = s.pp := by unfold markAck; split <;> rfl
            rw [hm]
            generalize markAck s ((mhdr >>> 5) &&& 7) = s0 at *
            show ∃ f', _ ∧ _ ∧ (if s0.session.devAddr ≠ or32 a0 a1 a2 a3 then _ else _) = _
            have hx : (put f p s0).session = s0.session := rfl
            by_cases k1 : s0.session.devAddr ≠ or32 a0 a1 a2 a3
            · rw [if_pos k1] at h ⊢
              cases h; exact ⟨f, by rw [hl, hfr], hpp, rfl⟩
            · rw [if_neg k1] at h ⊢
              by_cases k2 : (mhdr :: a0 :: a1 :: a2 :: a3 :: fctrl :: c0 :: c1 :: rest).length < 12 + (fctrl &&& 15).toNat
              · rw [if_pos k2] at h ⊢
                cases h; exact ⟨f, by rw [hl, hfr], hpp, rfl⟩
              · rw [if_neg k2] at h ⊢
                rw [hx]
                split at h
                · next d => cases h; exact ⟨f, by rw [hl, hfr], hpp, rfl⟩
                · next d hd =>
                  simp only [bind, Except.bind] at h ⊢
                  split at h
                  · cases h
                  · next v h3 =>
                    cases h
                    obtain ⟨f', m1, m2, m3⟩ := put_dataBody (f := f) (p := p) (by rw [hl, ← hfr]) h3
                    refine ⟨f', m1, m2.trans hpp, ?_⟩
                    rw [show dataBody E bat { put f p s0 with session := { s0.session with fCntDown := d } } pk _ rest _ = _ from m3]
      · cases h

theorem put_joinAccepted {s s' : St} {buf : Bytes} {cf : Bool} {ev : List Ev} (h : joinAccepted E s buf cf = .ok (s', ev)) :
    joinAccepted E (put f p s) buf cf = .ok (put f p s', ev) ∧ s'.frame = s.frame ∧ s'.pp = s.pp := by
  unfold joinAccepted at h ⊢
  split at h
  · next n0 n1 n2 i0 i1 i2 a0 a1 a2 a3 dl dly rest =>
    simp only [bind, Except.bind] at h ⊢
    have hr : joinRxParams (put f p s) dl dly = put f p (joinRxParams s dl dly) := by
      unfold joinRxParams put
      simp only
      repeat' split
      all_goals rfl
    have hk : (joinRxParams s dl dly).frame = s.frame ∧ (joinRxParams s dl dly).pp = s.pp := by
      unfold joinRxParams
      simp only
      repeat' split
      all_goals exact ⟨rfl, rfl⟩
    rw [hr]
    have hc : joinCflist (put f p (joinRxParams s dl dly)) cf rest = joinCflist (joinRxParams s dl dly) cf rest := rfl
    rw [hc]
    cases h1 : joinCflist (joinRxParams s dl dly) cf rest with
    | error u => rw [h1] at h; cases h
    | ok x => rw [h1] at h; cases h; exact ⟨rfl, hk⟩
  · cases h

theorem put_joinFinish {s s' : St} {pk pk' : DlPkt} {buf : Bytes} {cf : Bool} {e : Err} {ev : List Ev}
    (h : joinFinish E s pk buf cf = .ok (e, s', pk', ev)) :
    joinFinish E (put f p s) pk buf cf = .ok (e, put f p s', pk', ev) ∧ s'.frame = s.frame ∧ s'.pp = s.pp := by
  unfold joinFinish at h ⊢
  simp only at h ⊢
  have e1 : (put f p s).session = s.session := rfl
  have e2 : (put f p s).appKey = s.appKey := rfl
  rw [e1, e2]
  by_cases c : buf.drop (buf.length - 4) ≠ (calcMic E s.session (buf.take (buf.length - 4)) s.appKey 0 false).1
  · rw [if_pos c] at h ⊢
    cases h; exact ⟨rfl, rfl, rfl⟩
  · rw [if_neg c] at h ⊢
    cases h1 : joinAccepted E s buf cf with
    | error u => rw [h1] at h; cases h
    | ok x =>
      rw [h1] at h
      cases h
      obtain ⟨k1, k2⟩ := put_joinAccepted (f := f) (p := p) h1
      exact ⟨by rw [k1]; rfl, k2⟩

theorem blit_like {g g' src x : Bytes} {off : Nat} (hl : g'.length = g.length) (h : orOob (blit g off src) = .ok x) :
    ∃ x', orOob (blit g' off src) = .ok x' ∧ x'.length = x.length := by
  unfold blit at h ⊢
  rw [hl]
  split at h
  · next c =>
    cases h
    exact ⟨_, by rw [if_pos c]; rfl, by simp [hl]⟩
  · cases h

theorem put_handleJoin {s s' : St} {pk pk' : DlPkt} {e : Err} {ev : List Ev}
    (hl : f.length = s.frame.length) (h : handleJoinMsg E s pk = .ok (e, s', pk', ev)) :
    ∃ f', f'.length = s'.frame.length ∧ s'.pp = s.pp ∧ handleJoinMsg E (put f p s) pk = .ok (e, put f' p s', pk', ev) := by
  unfold handleJoinMsg at h ⊢
  split at h
  · cases h
  · next buf hb =>
    split at h
    · next c => cases h; exact ⟨f, hl, rfl, by rw [if_pos c]⟩
    · next c =>
      rw [if_neg c]
      split at h
      · cases h
      · next mhdr body =>
        split at h
        · next c => cases h; exact ⟨f, hl, rfl, by rw [if_pos c]⟩
        · next c =>
          rw [if_neg c]
          simp only [bind, Except.bind] at h ⊢
          have hk : (put f p s).appKey = s.appKey := rfl
          have hf : (put f p s).frame = f := rfl
          rw [hk, hf]
          cases h1 : joinDecrypt E s.appKey body (decide (body.length = 32)) with
          | error u => rw [h1] at h; cases h
          | ok x =>
            rw [h1] at h
            simp only at h ⊢
            cases h2 : orOob (blit s.frame 0 (mhdr :: x.1)) with
            | error u => rw [h2] at h; cases h
            | ok fr =>
              rw [h2] at h
              obtain ⟨fr', k1, k2⟩ := blit_like hl h2
              rw [k1]
              simp only at h ⊢
              cases h3 : joinFinish E { s with frame := fr } { pk with data := some (mhdr :: x.1) } (mhdr :: x.1) (decide (body.length = 32)) with
              | error u => rw [h3] at h; cases h
              | ok z =>
                rw [h3] at h
                cases h
                obtain ⟨m1, m2, m3⟩ := put_joinFinish (f := fr') (p := p) h3
                refine ⟨fr', by rw [k2, m2], m3, ?_⟩
                generalize hg : joinFinish E _ _ _ _ = q
                rw [show q = _ from hg.symm.trans m1]

theorem put_handleDownlink {o : Oracle} {s s' : St} {err : Err} {ev : List Ev} (hl : f.length = s.frame.length)
    (hne : o.rxData ≠ [] ∨ f.head? = s.frame.head?) (h : handleDownlink E o s err = .ok (s', ev)) :
    ∃ f', f'.length = s'.frame.length ∧ s'.pp = s.pp ∧ handleDownlink E o (put f p s) err = .ok (put f' p s', ev) := by
  unfold handleDownlink at h ⊢
  by_cases he : err = .no
  · rw [if_pos he] at h ⊢
    simp only [bind, Except.bind] at h ⊢
    have hf : (put f p s).frame = f := rfl
    rw [hf]
    cases h2 : orOob (blit s.frame 0 (o.rxData.take 255)) with
    | error u => rw [h2] at h; cases h
    | ok fr =>
      rw [h2] at h
      obtain ⟨fr', k1, k2⟩ := blit_like hl h2
      rw [k1]
      simp only at h ⊢
      have hd : fr'.head? = fr.head? := by
        have hb : ∀ (g y : Bytes), orOob (blit g 0 (o.rxData.take 255)) = .ok y → y.head? = o.rxData.head?.or g.head? := by
          intro g y hy
          unfold blit at hy
          split at hy
          · cases hy
            cases hx : o.rxData with
            | nil => simp
            | cons a r => simp
          · cases hy
        rw [hb _ _ h2, hb _ _ k1]
        rcases hne with hne | hne
        · cases hx : o.rxData with
          | nil => exact absurd hx hne
          | cons a r => simp
        · rw [hne]
      rw [hd]
      cases h3 : orOob fr.head? with
      | error u => rw [h3] at h; cases h
      | ok b =>
        rw [h3] at h
        simp only at h ⊢
        by_cases hjs : s.joinState = true
        · rw [if_pos hjs] at h
          rw [if_pos (show (put f p s).joinState = true from hjs)]
          split at h
          · cases h
          · next z hz =>
            cases h
            obtain ⟨f', m1, m2, m3⟩ := put_handleJoin (f := fr') (p := p) (by exact k2) hz
            generalize hg : handleJoinMsg E _ _ = q
            rw [show q = _ from hg.symm.trans m3]
            exact ⟨f', m1, m2, rfl⟩
        · rw [if_neg hjs] at h
          rw [if_neg (show ¬(put f p s).joinState = true from hjs)]
          split at h
          · cases h
          · next z hz =>
            cases h
            obtain ⟨f', m1, m2, m3⟩ := put_handleData (f := fr') (p := p) (by exact k2) hz
            generalize hg : handleDataMsg E _ _ _ = q
            rw [show q = _ from hg.symm.trans m3]
            exact ⟨f', m1, m2, rfl⟩
  · rw [if_neg he] at h ⊢
    cases h
    exact ⟨f, hl, rfl, rfl⟩

/-! ### Operations -/

/-- The settings a transmission leaves alone are the same. -/
def Fixed (p q : PktParams) : Prop :=
  p.cr = q.cr ∧ p.preambleLen = q.preambleLen ∧ p.crcOn = q.crcOn ∧ p.implicitHeader = q.implicitHeader

theorem Fixed.refl (p : PktParams) : Fixed p p := ⟨rfl, rfl, rfl, rfl⟩

theorem Fixed.set {p q : PktParams} (h : Fixed p q) (sf : Sf) (bw : Bw) (b : Bool) :
    { p with sf := sf, bw := bw, invertedIq := b } = { q with sf := sf, bw := bw, invertedIq := b } := by
  obtain ⟨h1, h2, h3, h4⟩ := h
  cases p; cases q
  simp only at *
  subst h1 h2 h3 h4
  rfl

/-- States that differ in nothing that matters: only in the frame buffer, and outside a transmission in settings written before the
next one. -/
structure Like (s t : St) : Prop where
  eq : t = put t.frame t.pp s
  len : t.frame.length = s.frame.length
  fixed : s.phase ≠ .notInit → Fixed t.pp s.pp
  tx : s.phase = .tx → t.pp = s.pp

theorem Like.mk' {s : St} {f : Bytes} {p : PktParams} (h1 : f.length = s.frame.length) (h2 : s.phase ≠ .notInit → Fixed p s.pp)
    (h3 : s.phase = .tx → p = s.pp) : Like s (put f p s) := ⟨rfl, h1, h2, h3⟩

theorem put_txPower (s : St) : applyTxPower (put f p s) = applyTxPower s := rfl

theorem put_setRx2 (s : St) (g : U32) (d : Nat) : setRx2 (put f p s) g d = ((setRx2 s g d).1, put f p (setRx2 s g d).2) := by
  unfold setRx2; split
  · rfl
  · split <;> rfl
theorem put_setDr (s : St) (d : Nat) : setDr (put f p s) d = put f p (setDr s d) := by
  unfold setDr; split <;> rfl
theorem put_setNbTrans (s : St) (n : Byte) : setNbTrans (put f p s) n = ((setNbTrans s n).1, put f p (setNbTrans s n).2) := by
  unfold setNbTrans setNbTransInt; split <;> rfl
theorem put_setTxPower (s : St) (n : Byte) : setTxPower (put f p s) n = ((setTxPower s n).1, put f p (setTxPower s n).2) := by
  unfold setTxPower setTxPowerInt; split <;> rfl
theorem put_setOff (s : St) (n : Byte) :
    setRx1DrOffset (put f p s) n = ((setRx1DrOffset s n).1, put f p (setRx1DrOffset s n).2) := by
  unfold setRx1DrOffset; split <;> rfl
theorem put_setDelay (s : St) (n : Byte) : setRx1Delay (put f p s) n = ((setRx1Delay s n).1, put f p (setRx1Delay s n).2) := by
  unfold setRx1Delay; split <;> rfl

theorem put_init (s : St) (r : Region) :
    uwanInit (put f p s) r = (put f { p with cr := .cr45, preambleLen := 8, crcOn := true, implicitHeader := false } (uwanInit s r).1,
      (uwanInit s r).2) := by
  refine Prod.ext ?_ rfl
  rw [uwanInit_eq]
  show _ = put _ _ (uwanInit s r).1
  rw [uwanInit_eq]
  rfl

theorem put_event {m : Byte} {o : Oracle} {s s' : St} {ev : List Ev} (hlen : f.length = s.frame.length)
    (hfx : s.phase ≠ .notInit → Fixed p s.pp) (htx : s.phase = .tx → p = s.pp) (hne : o.rxData ≠ [] ∨ f.head? = s.frame.head?)
    (hph : s.phase = .rx1 ∨ s.phase = .rx2 → s'.phase ≠ .tx) (h : evtHandler E o s m = .ok (s', ev)) : ∃ t', evtHandler E o (put f p s) m = .ok (t', ev) ∧ Like s' t' := by
  have keep : Like s (put f p s) := .mk' hlen hfx htx
  have hdl : ∀ (err : Err) {e1 : List Ev}, s.phase = .rx1 ∨ s.phase = .rx2 → handleDownlink E o { s with phase := .idle } err = .ok (s', e1) →
      ∃ t1, handleDownlink E o { put f p s with phase := .idle } err = .ok (t1, e1) ∧ Like s' t1 := by
    intro err e1 hn hd
    obtain ⟨f', m1, m2, m3⟩ := put_handleDownlink (f := f) (p := p) (s := { s with phase := .idle }) hlen hne hd
    refine ⟨_, m3, .mk' m1 (fun _ => by rw [m2]; exact hfx (by rcases hn with hn | hn <;> rw [hn] <;> nofun)) (fun hp => absurd hp (hph hn))⟩
  unfold evtHandler at h ⊢
  have hph : (put f p s).phase = s.phase := rfl
  rw [hph]
  cases hc : s.phase with
  | notInit => rw [hc] at h; cases h; exact ⟨_, rfl, keep⟩
  | idle => rw [hc] at h; cases h; exact ⟨_, rfl, keep⟩
  | tx =>
    rw [hc] at h
    have := htx hc
    subst this
    simp only [evtTx] at h ⊢
    by_cases c : irqTxDone m = true
    · rw [if_pos c] at h ⊢
      simp only [bind, Except.bind] at h ⊢
      have e : rx1Params (put f s.pp s) = rx1Params s := rfl
      rw [e]
      cases h1 : rx1Params s with
      | error u => rw [h1] at h; cases h
      | ok pp =>
        rw [h1] at h
        simp only at h ⊢
        have e : (put f s.pp s).mac = s.mac := rfl
        rw [e]
        cases h2 : macOnTxComplete s.mac o.devTime with
        | error u => rw [h2] at h; cases h
        | ok x =>
          rw [h2] at h
          cases h
          exact ⟨_, rfl, .mk' (s := { s with phase := .rx1, pp := pp, mac := x.1 }) (f := f) hlen (fun _ => .refl _) nofun⟩
    · rw [if_neg c] at h ⊢
      cases h; exact ⟨_, rfl, keep⟩
  | rx1 =>
    rw [hc] at h
    have hfx := hfx (by rw [hc]; nofun)
    simp only [evtRx1] at h ⊢
    by_cases c : irqRxTimeout m = true
    · rw [if_pos c] at h ⊢
      simp only [bind, Except.bind] at h ⊢
      have e : (put f p s).rx2Dr = s.rx2Dr := rfl
      rw [e]
      cases h1 : orOob (drTable s.rx2Dr) with
      | error u => rw [h1] at h; cases h
      | ok x =>
        rw [h1] at h
        cases h
        simp only
        have e2 : (put f p s).pp = p := rfl
        rw [e2, hfx.set]
        exact ⟨_, rfl, .mk' (s := { s with phase := .rx2, pp := _ }) (f := f) hlen (fun _ => .refl _) nofun⟩
    · rw [if_neg c] at h ⊢
      by_cases c : irqRxDone m = true
      · rw [if_pos c] at h ⊢
        simp only [bind, Except.bind] at h ⊢
        split at h
        · cases h
        · next z hz =>
          cases h
          obtain ⟨t1, k1, k2⟩ := hdl _ (.inl hc) hz
          rw [k1]
          exact ⟨_, rfl, k2⟩
      · rw [if_neg c] at h ⊢
        cases h; exact ⟨_, rfl, keep⟩
  | rx2 =>
    rw [hc] at h
    simp only [evtRx2] at h ⊢
    by_cases c : irqRxTimeout m = true
    · rw [if_pos c] at h ⊢
      exact hdl _ (.inr hc) h
    · rw [if_neg c] at h ⊢
      by_cases c : irqRxDone m = true
      · rw [if_pos c] at h ⊢
        exact hdl _ (.inr hc) h
      · rw [if_neg c] at h ⊢
        cases h; exact ⟨_, rfl, keep⟩

/-- Same step. -/
theorem step_like {s t s' : St} {op : Op} {r : Ret} {ev : List Ev} (hi : Inv s) (hl : Like s t)
    (hne : ∀ m o, op = .event m o → o.rxData ≠ [] ∨ t.frame.head? = s.frame.head?) (h : step E s op = .ok (r, s', ev)) :
    ∃ t', step E t op = .ok (r, t', ev) ∧ Like s' t' := by
  obtain ⟨he, hlen, hfx, htx⟩ := hl
  generalize t.frame = f at *
  generalize t.pp = p at *
  subst he
  have keep : ∀ {x : St}, x.phase = s.phase → x.pp = s.pp → x.frame = s.frame → Like x (put f p x) := fun h1 h2 h3 =>
    .mk' (by rw [h3, hlen]) (by rw [h1, h2]; exact hfx) (by rw [h1, h2]; exact htx)
  cases op with
  | init rg =>
    simp only [step] at h ⊢
    cases h
    rw [put_init]
    have i := uwanInit_eq s rg
    have i1 : (uwanInit s rg).1.frame = s.frame := by rw [i]
    have i2 : (uwanInit s rg).1.phase = .idle := by rw [i]
    exact ⟨_, rfl, .mk' (by rw [i1]; exact hlen) (fun _ => by rw [i]; exact ⟨rfl, rfl, rfl, rfl⟩) (by rw [i2]; nofun)⟩
  | setRx2 g d =>
    simp only [step] at h ⊢
    cases h
    rw [put_setRx2]
    exact ⟨_, rfl, by unfold setRx2; split; exact keep rfl rfl rfl; split <;> exact keep rfl rfl rfl⟩
  | setDr d =>
    simp only [step] at h ⊢
    cases h
    rw [put_setDr]
    exact ⟨_, rfl, by unfold setDr; split <;> exact keep rfl rfl rfl⟩
  | setNbTrans n =>
    simp only [step] at h ⊢
    cases h
    rw [put_setNbTrans]
    exact ⟨_, rfl, by unfold setNbTrans setNbTransInt; split <;> exact keep rfl rfl rfl⟩
  | setTxPower n =>
    simp only [step] at h ⊢
    cases h
    rw [put_setTxPower]
    exact ⟨_, rfl, by unfold setTxPower setTxPowerInt; split <;> exact keep rfl rfl rfl⟩
  | setRx1DrOffset n =>
    simp only [step] at h ⊢
    cases h
    rw [put_setOff]
    exact ⟨_, rfl, by unfold setRx1DrOffset; split <;> exact keep rfl rfl rfl⟩
  | setRx1Delay n =>
    simp only [step] at h ⊢
    cases h
    rw [put_setDelay]
    exact ⟨_, rfl, by unfold setRx1Delay; split <;> exact keep rfl rfl rfl⟩
  | setOtaaKeys => cases h; exact ⟨_, rfl, keep rfl rfl rfl⟩
  | setSession => cases h; exact ⟨_, rfl, keep rfl rfl rfl⟩
  | enableChannel => cases h; exact ⟨_, rfl, keep rfl rfl rfl⟩
  | setChannel => cases h; exact ⟨_, rfl, keep rfl rfl rfl⟩
  | setMaxEirp => cases h; exact ⟨_, rfl, keep rfl rfl rfl⟩
  | adrEnable => cases h; exact ⟨_, rfl, keep rfl rfl rfl⟩
  | adrSetupAck => cases h; exact ⟨_, rfl, keep rfl rfl rfl⟩
  | macSetHandlers => cases h; exact ⟨_, rfl, keep rfl rfl rfl⟩
  | linkCheckReq => cases h; exact ⟨_, rfl, keep rfl rfl rfl⟩
  | deviceTimeReq => cases h; exact ⟨_, rfl, keep rfl rfl rfl⟩
  | isJoined => cases h; exact ⟨_, rfl, keep rfl rfl rfl⟩
  | getMaxPayload => cases h; exact ⟨_, rfl, keep rfl rfl rfl⟩
  | timer id =>
    cases h
    have e : timerCallback (put f p s) id = (put f p s, (timerCallback s id).2) := by
      unfold timerCallback
      show (if s.phase = .rx1 ∧ id = .rx1 then _ else if s.phase = .rx2 ∧ id = .rx2 then _ else _) = _
      split
      · rfl
      · split <;> rfl
    have e' : (timerCallback s id).1 = s := by
      unfold timerCallback; split
      · rfl
      · split <;> rfl
    simp only [step]
    rw [e, e']
    exact ⟨_, rfl, keep rfl rfl rfl⟩
  | join r1 r2 =>
    simp only [step, uwanJoin, bind, Except.bind] at h ⊢
    generalize ht : put f p s = t
    by_cases c : s.phase ≠ .idle
    · rw [if_pos c] at h
      rw [if_pos (show t.phase ≠ .idle by rw [← ht]; exact c)]
      cases h; exact ⟨_, rfl, by rw [← ht]; exact keep rfl rfl rfl⟩
    rw [if_neg c] at h
    rw [if_neg (show ¬ t.phase ≠ .idle by rw [← ht]; exact c)]
    have hfx := hfx (by intro hx; rw [hx] at c; exact c nofun)
    have ec : t.chan = s.chan := by rw [← ht]; rfl
    rw [ec]
    cases h1 : channelsGetNext s.chan r1 with
    | error u => rw [h1] at h; cases h
    | ok g =>
      rw [h1] at h
      simp only at h ⊢
      by_cases c0 : g = 0
      · rw [if_pos c0] at h ⊢
        cases h; exact ⟨_, rfl, by rw [← ht]; exact keep rfl rfl rfl⟩
      rw [if_neg c0] at h ⊢
      have ec : t.defaultDr = s.defaultDr := by rw [← ht]; rfl
      rw [ec]
      cases h2 : orOob (drTable s.defaultDr) with
      | error u => rw [h2] at h; cases h
      | ok d =>
        rw [h2] at h
        simp only at h ⊢
        have ep : t.pp = p := by rw [← ht]; rfl
        have ef : t.frame = f := by rw [← ht]; rfl
        rw [ep, hfx.set]
        generalize hq : ({ s.pp with sf := d.1, bw := d.2, invertedIq := false } : PktParams) = q at h ⊢
        have e5 : applyTxPower { t with pp := q, defaultDr := s.defaultDr, chan := s.chan } = applyTxPower { s with pp := q } := by rw [← ht]; rfl
        rw [e5]
        cases h3 : applyTxPower { s with pp := q } with
        | error u => rw [h3] at h; cases h
        | ok evp =>
          rw [h3] at h
          simp only at h ⊢
          have e6 : buildJoin E { t with pp := q, defaultDr := s.defaultDr, chan := s.chan } (BitVec.ofNat 32 (r2 % 65536)) =
            buildJoin E { s with pp := q } (BitVec.ofNat 32 (r2 % 65536)) := by rw [← ht]; rfl
          rw [e6]
          generalize buildJoin E { s with pp := q } (BitVec.ofNat 32 (r2 % 65536)) = jr at h ⊢
          cases h4 : orOob (blit s.frame 0 jr.1) with
          | error u => rw [h4] at h; cases h
          | ok g =>
            rw [h4] at h
            obtain ⟨g', k1, k2⟩ := blit_like (g' := f) hlen h4
            rw [ef, k1]
            cases h
            refine ⟨_, rfl, ?_⟩
            rw [← ht]
            exact .mk' (s := { s with pp := q, session := { s.session with isJoined := false }, joinState := true, devNonce := BitVec.ofNat 32 (r2 % 65536), frame := g, rx1Delay := 5000, rx2Delay := 5000 + 1000, phase := .tx }) (f := g') k2 (fun _ => .refl _) (fun _ => rfl)
  | send port pld cf rnd =>
    simp only [step, sendFrame, bind, Except.bind] at h ⊢
    generalize ht : put f p s = t
    by_cases c : s.phase ≠ .idle
    · rw [if_pos c] at h
      rw [if_pos (show t.phase ≠ .idle by rw [← ht]; exact c)]
      cases h; exact ⟨_, rfl, by rw [← ht]; exact keep rfl rfl rfl⟩
    rw [if_neg c] at h
    rw [if_neg (show ¬ t.phase ≠ .idle by rw [← ht]; exact c)]
    have hfx := hfx (by intro hx; rw [hx] at c; exact c nofun)
    have ec : t.chan = s.chan := by rw [← ht]; rfl
    rw [ec]
    cases h1 : channelsGetNext s.chan rnd with
    | error u => rw [h1] at h; cases h
    | ok g =>
      rw [h1] at h
      simp only at h ⊢
      by_cases c0 : g = 0
      · rw [if_pos c0] at h ⊢
        cases h; exact ⟨_, rfl, by rw [← ht]; exact keep rfl rfl rfl⟩
      rw [if_neg c0] at h ⊢
      have e1 : getMaxPayloadSize t = getMaxPayloadSize s := by rw [← ht]; rfl
      have e2 : t.mac = s.mac := by rw [← ht]; rfl
      have e3 : currentDr t = currentDr s := by rw [← ht]; rfl
      rw [e1, e2, e3]
      by_cases c1 : pld.length > getMaxPayloadSize s
      · rw [if_pos c1] at h ⊢
        cases h; exact ⟨_, rfl, by rw [← ht]; exact keep rfl rfl rfl⟩
      rw [if_neg c1] at h ⊢
      by_cases c2 : pld.length = 0 ∧ s.mac.queue.length = 0
      · rw [if_pos c2] at h ⊢
        cases h; exact ⟨_, rfl, by rw [← ht]; exact keep rfl rfl rfl⟩
      rw [if_neg c2] at h ⊢
      cases h2 : orOob (drTable (currentDr s)) with
      | error u => rw [h2] at h; cases h
      | ok d =>
        rw [h2] at h
        simp only at h ⊢
        have ep : t.pp = p := by rw [← ht]; rfl
        have ef : t.frame = f := by rw [← ht]; rfl
        rw [ep, hfx.set]
        generalize hq : ({ s.pp with sf := d.1, bw := d.2, invertedIq := false } : PktParams) = q at h ⊢
        have e5 : applyTxPower { t with pp := q, mac := s.mac, chan := s.chan } = applyTxPower { s with pp := q } := by rw [← ht]; rfl
        rw [e5]
        cases h3 : applyTxPower { s with pp := q } with
        | error u => rw [h3] at h; cases h
        | ok evp =>
          rw [h3] at h
          simp only at h ⊢
          have e6 : buildUplink E { t with pp := q, mac := s.mac, chan := s.chan } port pld cf =
            buildUplink E { s with pp := q } port pld cf := by rw [← ht]; rfl
          rw [e6]
          generalize buildUplink E { s with pp := q } port pld cf = jr at h ⊢
          cases h4 : orOob (blit s.frame 0 jr.1) with
          | error u => rw [h4] at h; cases h
          | ok g =>
            rw [h4] at h
            obtain ⟨g', k1, k2⟩ := blit_like (g' := f) hlen h4
            rw [ef, k1]
            cases h
            refine ⟨_, rfl, ?_⟩
            rw [← ht]
            generalize hx : ({ s with frame := g, pp := q, mac := (macGetPayload s.mac 15).2, session := { s.session with ackRequired := false, fCntUp := s.session.fCntUp + 1 }, rx1Delay := s.defaultRx1Delay, rx2Delay := s.defaultRx1Delay + 1000, phase := .tx } : St) = x
            have ha : adrHandleUplink (put g' q x) = put g' q (adrHandleUplink x) := by
              unfold adrHandleUplink
              by_cases k : x.session.dr ≠ 0 ∧ (x.adr.ackCnt + 1).toNat > x.adr.ackLimit.toNat + x.adr.ackDelay.toNat
              · rw [if_pos k]; exact if_pos k
              · rw [if_neg k]; exact if_neg k
            have hb : (adrHandleUplink x).frame = x.frame ∧ (adrHandleUplink x).pp = x.pp ∧ (adrHandleUplink x).phase = x.phase := by
              unfold adrHandleUplink; simp only; split <;> exact ⟨rfl, rfl, rfl⟩
            have hy : Like (adrHandleUplink x) (adrHandleUplink (put g' q x)) := by
              rw [ha]
              refine .mk' (by rw [hb.1, ← hx]; exact k2) (fun _ => by rw [hb.2.1, ← hx]; exact .refl _) (fun _ => by rw [hb.2.1, ← hx])
            subst hx
            exact hy
  | event m o =>
    have hph : s.phase = .rx1 ∨ s.phase = .rx2 → s'.phase ≠ .tx := by
      intro hp
      cases step_event hi h with
      | ignore => rcases hp with hp | hp <;> rw [hp] <;> nofun
      | txDone => nofun
      | rx1Timeout => nofun
      | rx1Done s1 ev1 hp ht hm hc => rw [hc.dl.1.phase]; nofun
      | rx2Timeout _ _ hp hm hc => rw [hc.dl.1.phase]; nofun
      | rx2Done _ _ hp ht hm hc => rw [hc.dl.1.phase]; nofun
    simp only [step, bind, Except.bind] at h ⊢
    split at h
    · cases h
    · next z hz =>
      cases h
      obtain ⟨t', k1, k2⟩ := put_event (E := E) hlen hfx htx (hne m o rfl) hph hz
      rw [k1]
      exact ⟨t', rfl, k2⟩

end Uwan
