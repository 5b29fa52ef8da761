import Verif.Lemmas.Like
import Verif.Spec.Secrecy

/-!
# Runs that differ in their keys
-/

namespace Uwan
open Spec

variable {E E' : Env} {R : Block → Block → Prop} {a n p : Block}

/-- `s` with other keys. -/
def rek (a n p : Block) (s : St) : St := { s with appKey := a, session := { s.session with nwkSKey := n, appSKey := p } }

/-- The keys of `s` are paired with these. -/
structure Fits (R : Block → Block → Prop) (a n p : Block) (s : St) : Prop where
  app : R s.appKey a
  nwk : R s.session.nwkSKey n
  skey : R s.session.appSKey p

/-- The keys are kept. -/
def keysOf (s : St) : Block × Block × Block := (s.appKey, s.session.nwkSKey, s.session.appSKey)

theorem Fits.of_keys {s t : St} (h : Fits R a n p s) (hk : keysOf t = keysOf s) : Fits R a n p t := by
  unfold keysOf at hk
  simp only [Prod.mk.injEq] at hk
  exact ⟨hk.1 ▸ h.app, hk.2.1 ▸ h.nwk, hk.2.2 ▸ h.skey⟩

theorem rek_calcMic (P : Paired E E' R) {ss ss' : Session} {k k' : Block} (hk : R k k') (h1 : ss'.devAddr = ss.devAddr)
    (h2 : ss'.fCntDown = ss.fCntDown) (h3 : ss'.fCntUp = ss.fCntUp) (msg : Bytes) (dir : Byte) (b0 : Bool) :
    (calcMic E' ss' msg k' dir b0).1 = (calcMic E ss msg k dir b0).1 ∧
      (calcMic E' ss' msg k' dir b0).2.map hideKey = (calcMic E ss msg k dir b0).2.map hideKey := by
  unfold calcMic
  simp only [h1, h2, h3, P.cmac hk, true_and]
  cases b0 <;> simp [hideKey]

theorem rek_encLoop {f g : Block → Block} (h : ∀ b, g b = f b) (dir : Byte) (addr fcnt : U32) : ∀ (k : Nat) (i : Byte) (l : Bytes),
    encLoop g dir addr fcnt k i l = encLoop f dir addr fcnt k i l := by
  obtain rfl : g = f := funext h
  exact fun _ _ _ => rfl

theorem rek_encrypt (P : Paired E E' R) {ss ss' : Session} {k k' : Block} (hk : R k k') (h1 : ss'.devAddr = ss.devAddr)
    (h2 : ss'.fCntDown = ss.fCntDown) (h3 : ss'.fCntUp = ss.fCntUp) (buf : Bytes) (dir : Byte) :
    (encryptPayload E' ss' buf k' dir).1 = (encryptPayload E ss buf k dir).1 ∧
      (encryptPayload E' ss' buf k' dir).2.map hideKey = (encryptPayload E ss buf k dir).2.map hideKey := by
  unfold encryptPayload
  simp only [h1, h2, h3, rek_encLoop (P.aes hk), true_and]
  simp [hideKey]

/-! ### MAC commands -/

theorem rek_enqueue (s : St) (cid : Byte) (data : Bytes) :
    (rek a n p s).enqueue cid data = ((s.enqueue cid data).1, rek a n p (s.enqueue cid data).2) := rfl

theorem rek_linkAdrApply (s : St) (x : Byte) (m : U16) (r : Byte) :
    linkAdrApply (rek a n p s) x m r = rek a n p (linkAdrApply s x m r) := by
  unfold linkAdrApply linkAdrNbTrans setNbTransInt setTxPowerInt resetNbTrans rek
  simp only
  split <;> split <;> rfl

theorem rek_rxParamApply (s : St) (x b : Byte) (g : U32) : rxParamApply (rek a n p s) x b g = rek a n p (rxParamApply s x b g) := by
  unfold rxParamApply setRx2 setRx1DrOffset rek
  simp only
  split <;> split <;> (try split) <;> rfl

theorem rek_handler (h : MacHandler) {s s' : St} {pld : Bytes} {bat : Byte} {b : Bool} {ev : List Ev}
    (hs : runHandler h s pld bat = .ok (b, s', ev)) : runHandler h (rek a n p s) pld bat = .ok (b, rek a n p s', ev) := by
  cases h with
  | linkCheck =>
    simp only [runHandler, hLinkCheck] at hs ⊢
    show (match s.mac.cbs with | some cbs => _ | none => _) = _
    split at hs
    · split at hs
      · split at hs
        · cases hs; simp_all
        · cases hs
      · cases hs; simp_all
    · cases hs; simp_all
  | linkAdr =>
    simp only [runHandler, hLinkAdr] at hs ⊢
    split at hs
    · cases hs
    · next rg x b c d t hr =>
      cases hs
      have : (rek a n p s).region = some rg := hr
      rw [this]
      simp only [adrHandleLinkReq, rek_linkAdrApply]
      have e : linkAdrStatus (rek a n p s) x (or16 b c) d = linkAdrStatus s x (or16 b c) d := rfl
      rw [e]
      split <;> rfl
    · cases hs
  | dutyCycle => cases hs; rfl
  | rxParamSetup =>
    simp only [runHandler, hRxParamSetup] at hs ⊢
    split at hs
    · cases hs
      simp only [rek_rxParamApply]
      split <;> rfl
    · cases hs
  | devStatus =>
    simp only [runHandler, hDevStatus] at hs ⊢
    show (match s.mac.cbs with | some cbs => _ | none => _) = _
    split at hs
    · split at hs <;> cases hs <;> simp_all <;> exact ⟨rfl, rfl⟩
    · cases hs; simp_all; exact ⟨rfl, rfl⟩
  | newChannel =>
    simp only [runHandler, hNewChannel] at hs ⊢
    split at hs
    · cases hs; rfl
    · cases hs
  | rxTimingSetup =>
    simp only [runHandler, hRxTimingSetup] at hs ⊢
    split at hs
    · cases hs
      simp only [setRx1Delay]
      split <;> split <;> first | rfl | contradiction
    · cases hs
  | txParamSetup => cases hs; rfl
  | diChannel => cases hs; rfl
  | deviceTime =>
    simp only [runHandler, hDeviceTime] at hs ⊢
    show (match s.mac.cbs with | some cbs => _ | none => _) = _
    split at hs
    · split at hs
      · split at hs
        · cases hs; simp_all; rfl
        · cases hs
      · cases hs; simp_all
    · cases hs; simp_all

theorem rek_loop (bat : Nat → Byte) : ∀ (k : Nat) {s s' : St} {l : Bytes} {ev : List Ev}, macLoop bat k s l = .ok (s', ev) →
    macLoop bat k (rek a n p s) l = .ok (rek a n p s', ev)
  | _, _, _, [], _, h => by cases ‹Nat› <;> (cases h; rfl)
  | 0, _, _, _ :: _, _, h => by cases h
  | k + 1, s, s', cid :: rest, ev, h => by
    unfold macLoop at h ⊢
    split at h
    · cases h; rfl
    · next c hc =>
      simp only
      split at h
      · next hl =>
        rw [if_pos hl]
        cases hr : runHandler c.handler s rest (bat rest.length) with
        | error u => rw [hr] at h; cases h
        | ok x =>
          obtain ⟨b, s1, e1⟩ := x
          rw [hr] at h
          rw [rek_handler c.handler hr]
          simp only [bind, Except.bind] at h ⊢
          split at h
          · next hb =>
            simp only [hb, if_true]
            cases hm : macLoop bat k s1 (rest.drop c.pldSize) with
            | error u => rw [hm] at h; cases h
            | ok y =>
              obtain ⟨s2, e2⟩ := y
              rw [hm] at h
              rw [rek_loop bat k hm]
              cases h; rfl
          · next hb =>
            cases h
            simp only [hb]; rfl
      · next hl =>
        cases h
        rw [if_neg hl]

theorem loop_keys {bat : Nat → Byte} {k : Nat} {s s' : St} {l : Bytes} {ev : List Ev} (h : macLoop bat k s l = .ok (s', ev)) :
    keysOf s' = keysOf s := by
  have := rek_loop (a := s.appKey) (n := s.session.nwkSKey) (p := s.session.appSKey) bat k h
  rw [show rek s.appKey s.session.nwkSKey s.session.appSKey s = s from rfl, h] at this
  injection this with this
  injection this with this
  rw [this]
  rfl

/-! ### Data frames -/

theorem rek_dataFinish (P : Paired E E' R) {s s' : St} {pk pk' : DlPkt} {pld : Option Bytes} {buf : Bytes} {off : Nat} {e : Err}
    {ev : List Ev} (hf : Fits R a n p s) (h : dataFinish E s pk pld buf off = .ok (e, s', pk', ev)) :
    keysOf s' = keysOf s ∧ ∃ ev', dataFinish E' (rek a n p s) pk pld buf off = .ok (e, rek a n p s', pk', ev') ∧
      ev'.map hideKey = ev.map hideKey := by
  unfold dataFinish at h ⊢
  simp only at h ⊢
  have hm := rek_calcMic P hf.nwk (ss := s.session) (ss' := (rek a n p s).session) rfl rfl rfl (buf.take (buf.length - 4)) 1 true
  rw [show (rek a n p s).session.nwkSKey = n from rfl, show (rek a n p s).session.appSKey = p from rfl, hm.1]
  generalize calcMic E s.session (buf.take (buf.length - 4)) s.session.nwkSKey 1 true = mic at h hm ⊢
  generalize calcMic E' (rek a n p s).session (buf.take (buf.length - 4)) n 1 true = mic' at hm ⊢
  by_cases c : buf.drop (buf.length - 4) ≠ mic.1
  · rw [if_pos c] at h ⊢
    cases h
    exact ⟨rfl, _, rfl, hm.2⟩
  · rw [if_neg c] at h ⊢
    split at h
    · next b l =>
      have hk : R (if pk.fPort = 0 then s.session.nwkSKey else s.session.appSKey) (if pk.fPort = 0 then n else p) := by
        split
        · exact hf.nwk
        · exact hf.skey
      generalize (if pk.fPort = 0 then s.session.nwkSKey else s.session.appSKey) = key at h hk
      generalize (if pk.fPort = 0 then n else p) = key' at hk ⊢
      have he := rek_encrypt P hk (ss := s.session) (ss' := (rek a n p s).session) rfl rfl rfl (b :: l) 1
      generalize encryptPayload E s.session (b :: l) key 1 = en at h he
      generalize encryptPayload E' (rek a n p s).session (b :: l) key' 1 = en' at he ⊢
      rw [show (rek a n p s).frame = s.frame from rfl, he.1]
      simp only [bind, Except.bind] at h ⊢
      cases hb : orOob (blit s.frame off en.1) with
      | error u => rw [hb] at h; cases h
      | ok fr =>
        rw [hb] at h
        cases h
        exact ⟨rfl, _, rfl, by simp [hm.2, he.2]⟩
    · cases h
      exact ⟨rfl, _, rfl, hm.2⟩

theorem rek_dataCmds {bat : Nat → Byte} {s s' : St} {fo : Nat} {l : Bytes} {ev : List Ev} (h : dataCmds bat s fo l = .ok (s', ev)) :
    dataCmds bat (rek a n p s) fo l = .ok (rek a n p s', ev) ∧ keysOf s' = keysOf s := by
  unfold dataCmds at h ⊢
  split at h
  · next hf => rw [if_pos hf]; exact ⟨rek_loop bat _ h, loop_keys h⟩
  · next hf => rw [if_neg hf]; cases h; exact ⟨rfl, rfl⟩

theorem rek_dataBody (P : Paired E E' R) {bat : Nat → Byte} {s s' : St} {pk pk' : DlPkt} {buf rest : Bytes} {fo : Nat} {e : Err}
    {ev : List Ev} (hf : Fits R a n p s) (h : dataBody E bat s pk buf rest fo = .ok (e, s', pk', ev)) :
    keysOf s' = keysOf s ∧ ∃ ev', dataBody E' bat (rek a n p s) pk buf rest fo = .ok (e, rek a n p s', pk', ev') ∧
      ev'.map hideKey = ev.map hideKey := by
  unfold dataBody at h ⊢
  simp only [bind, Except.bind] at h ⊢
  cases h1 : dataCmds bat { s with snr := pk.snr } fo rest with
  | error u => rw [h1] at h; cases h
  | ok x =>
    obtain ⟨s1, e1⟩ := x
    rw [h1] at h
    obtain ⟨k1, k2⟩ := rek_dataCmds (a := a) (n := n) (p := p) h1
    rw [show dataCmds bat { rek a n p s with snr := pk.snr } fo rest = .ok (rek a n p s1, e1) from k1]
    simp only at h ⊢
    cases h2 : dataTail pk (buf.length - (12 + fo)) (rest.drop fo) with
    | error u => rw [h2] at h; cases h
    | ok y =>
      obtain ⟨pk2, pld⟩ := y
      rw [h2] at h
      simp only at h ⊢
      cases h3 : dataFinish E s1 pk2 pld buf (8 + fo + 1) with
      | error u => rw [h3] at h; cases h
      | ok z =>
        obtain ⟨e2, s2, pk3, ev2⟩ := z
        rw [h3] at h
        cases h
        obtain ⟨m1, ev', m2, m3⟩ := rek_dataFinish P (hf.of_keys k2) h3
        rw [m2]
        exact ⟨m1.trans k2, _, rfl, by simp [m3]⟩

theorem rek_handleData (P : Paired E E' R) {bat : Nat → Byte} {s s' : St} {pk pk' : DlPkt} {e : Err} {ev : List Ev}
    (hf : Fits R a n p s) (h : handleDataMsg E bat s pk = .ok (e, s', pk', ev)) :
    keysOf s' = keysOf s ∧ ∃ ev', handleDataMsg E' bat (rek a n p s) pk = .ok (e, rek a n p s', pk', ev') ∧
      ev'.map hideKey = ev.map hideKey := by
  unfold handleDataMsg at h ⊢
  split at h
  · cases h
  · next buf hb =>
    split at h
    · next c => cases h; exact ⟨rfl, _, by rw [if_pos c], rfl⟩
    · next c =>
      rw [if_neg c]
      split at h
      · next _ mhdr a0 a1 a2 a3 fctrl c0 c1 rest =>
        simp only at h ⊢
        split at h
        · next c => cases h; exact ⟨rfl, _, by rw [if_pos c], rfl⟩
        · next c =>
          rw [if_neg c]
          split at h
          · next c => cases h; exact ⟨rfl, _, by rw [if_pos c], rfl⟩
          · next c =>
            rw [if_neg c]
            have hm : markAck (rek a n p s) ((mhdr >>> 5) &&& 7) = rek a n p (markAck s ((mhdr >>> 5) &&& 7)) := by
              unfold markAck; split <;> rfl
            have hk : keysOf (markAck s ((mhdr >>> 5) &&& 7)) = keysOf s := by unfold markAck; split <;> rfl
            rw [hm]
            have hf0 := hf.of_keys hk
            generalize markAck s ((mhdr >>> 5) &&& 7) = s0 at *
            have hx : (rek a n p s0).session.devAddr = s0.session.devAddr := rfl
            have hy : (rek a n p s0).session.fCntDown = s0.session.fCntDown := rfl
            rw [hx, hy]
            by_cases k1 : s0.session.devAddr ≠ or32 a0 a1 a2 a3
            · rw [if_pos k1] at h ⊢
              cases h; exact ⟨hk, _, rfl, rfl⟩
            · rw [if_neg k1] at h ⊢
              by_cases k2 : (mhdr :: a0 :: a1 :: a2 :: a3 :: fctrl :: c0 :: c1 :: rest).length < 12 + (fctrl &&& 15).toNat
              · rw [if_pos k2] at h ⊢
                cases h; exact ⟨hk, _, rfl, rfl⟩
              · rw [if_neg k2] at h ⊢
                split at h
                · next d => cases h; exact ⟨hk, _, rfl, rfl⟩
                · next d hd =>
                  simp only [bind, Except.bind] at h ⊢
                  split at h
                  · cases h
                  · next v h3 =>
                    cases h
                    obtain ⟨m1, ev', m2, m3⟩ := rek_dataBody P (a := a) (n := n) (p := p) (s := { s0 with session := { s0.session with fCntDown := d } })
                      ⟨hf0.app, hf0.nwk, hf0.skey⟩ h3
                    refine ⟨m1.trans hk, ?_⟩
                    generalize hg : dataBody E' bat _ pk _ rest _ = q
                    rw [show q = _ from hg.symm.trans m2]
                    exact ⟨_, rfl, by simp [m3]⟩
      · cases h

/-! ### Join-accepts -/

theorem rek_joinAccepted (P : Paired E E' R) {s s' : St} {buf : Bytes} {cf : Bool} {ev : List Ev} (hf : Fits R a n p s)
    (h : joinAccepted E s buf cf = .ok (s', ev)) :
    ∃ n' p' ev', joinAccepted E' (rek a n p s) buf cf = .ok (rek a n' p' s', ev') ∧ Fits R a n' p' s' ∧
      ev'.map hideKey = ev.map hideKey := by
  unfold joinAccepted at h ⊢
  split at h
  · next n0 n1 n2 i0 i1 i2 a0 a1 a2 a3 dl dly rest =>
    simp only [bind, Except.bind] at h ⊢
    have hr : joinRxParams (rek a n p s) dl dly = rek a n p (joinRxParams s dl dly) := by
      unfold joinRxParams
      generalize (dl >>> 4) &&& 7 = off
      generalize dl &&& 0xf = r2
      simp only
      generalize (if dly &&& 15#8 = 0#8 then 1#8 else dly &&& 15#8) = d
      generalize BitVec.ofNat 32 (d.toNat * 1000) = dd
      repeat' split
      all_goals rfl
    have hk : keysOf (joinRxParams s dl dly) = keysOf s ∧ (joinRxParams s dl dly).devNonce = s.devNonce := by
      unfold joinRxParams keysOf
      simp only
      generalize (if dly &&& 15#8 = 0#8 then 1#8 else dly &&& 15#8) = d
      generalize BitVec.ofNat 32 (d.toNat * 1000) = dd
      repeat' split
      all_goals exact ⟨rfl, rfl⟩
    rw [hr]
    have hc : joinCflist (rek a n p (joinRxParams s dl dly)) cf rest = joinCflist (joinRxParams s dl dly) cf rest := rfl
    rw [hc]
    have hf1 := hf.of_keys hk.1
    generalize joinRxParams s dl dly = s1 at *
    cases h1 : joinCflist s1 cf rest with
    | error u => rw [h1] at h; cases h
    | ok x =>
      rw [h1] at h
      cases h
      have hd : ∀ t : Byte, (deriveSessionKey E' a t (or24 n0 n1 n2) (or24 i0 i1 i2) s1.devNonce).2.map hideKey =
          (deriveSessionKey E s1.appKey t (or24 n0 n1 n2) (or24 i0 i1 i2) s1.devNonce).2.map hideKey := fun t => by
        unfold deriveSessionKey; simp [hideKey]
      refine ⟨_, _, _, rfl, ⟨hf1.app, P.derived hf1.app _, P.derived hf1.app _⟩, ?_⟩
      simp only [List.map_append]
      have d1 := hd 1
      have d2 := hd 2
      rw [show (rek a n p s1).appKey = a from rfl, show (rek a n p s1).devNonce = s1.devNonce from rfl, d1, d2]
  · cases h

theorem rek_joinFinish (P : Paired E E' R) {s s' : St} {pk pk' : DlPkt} {buf : Bytes} {cf : Bool} {e : Err} {ev : List Ev}
    (hf : Fits R a n p s) (h : joinFinish E s pk buf cf = .ok (e, s', pk', ev)) :
    ∃ n' p' ev', joinFinish E' (rek a n p s) pk buf cf = .ok (e, rek a n' p' s', pk', ev') ∧ Fits R a n' p' s' ∧
      ev'.map hideKey = ev.map hideKey := by
  unfold joinFinish at h ⊢
  simp only at h ⊢
  have hm := rek_calcMic P hf.app (ss := s.session) (ss' := (rek a n p s).session) rfl rfl rfl (buf.take (buf.length - 4)) 0 false
  rw [show (rek a n p s).appKey = a from rfl, hm.1]
  generalize calcMic E s.session (buf.take (buf.length - 4)) s.appKey 0 false = mic at h hm ⊢
  generalize calcMic E' (rek a n p s).session (buf.take (buf.length - 4)) a 0 false = mic' at hm ⊢
  by_cases c : buf.drop (buf.length - 4) ≠ mic.1
  · rw [if_pos c] at h ⊢
    cases h; exact ⟨n, p, _, rfl, hf, hm.2⟩
  · rw [if_neg c] at h ⊢
    cases h1 : joinAccepted E s buf cf with
    | error u => rw [h1] at h; cases h
    | ok x =>
      rw [h1] at h
      cases h
      obtain ⟨n', p', ev', k1, k2, k3⟩ := rek_joinAccepted P hf h1
      exact ⟨n', p', _, by rw [k1]; rfl, k2, by simp [hm.2, k3]⟩

theorem rek_joinDecrypt (P : Paired E E' R) {k k' : Block} (hk : R k k') {body : Bytes} {cf : Bool} {x : Bytes × List Ev}
    (h : joinDecrypt E k body cf = .ok x) :
    ∃ y, joinDecrypt E' k' body cf = .ok y ∧ y.1 = x.1 ∧ y.2.map hideKey = x.2.map hideKey := by
  unfold joinDecrypt at h ⊢
  simp only [bind, Except.bind] at h ⊢
  cases h1 : orOob (toBlock? body) with
  | error u => rw [h1] at h; cases h
  | ok b1 =>
    rw [h1] at h
    cases cf with
    | false => cases h; exact ⟨_, rfl, by simp [P.aes hk], rfl⟩
    | true =>
      simp only [if_true] at h ⊢
      cases h2 : orOob (toBlock? (body.drop 16)) with
      | error u => rw [h2] at h; cases h
      | ok b2 => rw [h2] at h; cases h; exact ⟨_, rfl, by simp [P.aes hk], rfl⟩

theorem rek_handleJoin (P : Paired E E' R) {s s' : St} {pk pk' : DlPkt} {e : Err} {ev : List Ev} (hf : Fits R a n p s)
    (h : handleJoinMsg E s pk = .ok (e, s', pk', ev)) :
    ∃ n' p' ev', handleJoinMsg E' (rek a n p s) pk = .ok (e, rek a n' p' s', pk', ev') ∧ Fits R a n' p' s' ∧
      ev'.map hideKey = ev.map hideKey := by
  unfold handleJoinMsg at h ⊢
  split at h
  · cases h
  · next buf hb =>
    split at h
    · next c => cases h; exact ⟨n, p, _, by rw [if_pos c], hf, rfl⟩
    · next c =>
      rw [if_neg c]
      split at h
      · cases h
      · next mhdr body =>
        split at h
        · next c => cases h; exact ⟨n, p, _, by rw [if_pos c], hf, rfl⟩
        · next c =>
          rw [if_neg c]
          simp only [bind, Except.bind] at h ⊢
          cases h1 : joinDecrypt E s.appKey body (decide (body.length = 32)) with
          | error u => rw [h1] at h; cases h
          | ok x =>
            rw [h1] at h
            obtain ⟨y, y1, y2, y3⟩ := rek_joinDecrypt P hf.app h1
            rw [show (rek a n p s).appKey = a from rfl, y1]
            simp only at h ⊢
            rw [show (rek a n p s).frame = s.frame from rfl, y2]
            cases h2 : orOob (blit s.frame 0 (mhdr :: x.1)) with
            | error u => rw [h2] at h; cases h
            | ok fr =>
              rw [h2] at h
              simp only at h ⊢
              cases h3 : joinFinish E { s with frame := fr } { pk with data := some (mhdr :: x.1) } (mhdr :: x.1) (decide (body.length = 32)) with
              | error u => rw [h3] at h; cases h
              | ok z =>
                rw [h3] at h
                cases h
                obtain ⟨n', p', ev', m1, m2, m3⟩ := rek_joinFinish (a := a) (n := n) (p := p) P (s := { s with frame := fr }) ⟨hf.app, hf.nwk, hf.skey⟩ h3
                generalize hg : joinFinish E' _ _ _ _ = q
                rw [show q = _ from hg.symm.trans m1]
                exact ⟨n', p', _, rfl, m2, by simp [y3, m3]⟩

theorem rek_handleDownlink (P : Paired E E' R) {o : Oracle} {s s' : St} {err : Err} {ev : List Ev} (hf : Fits R a n p s)
    (h : handleDownlink E o s err = .ok (s', ev)) :
    ∃ n' p' ev', handleDownlink E' o (rek a n p s) err = .ok (rek a n' p' s', ev') ∧ Fits R a n' p' s' ∧
      ev'.map hideKey = ev.map hideKey := by
  unfold handleDownlink at h ⊢
  by_cases he : err = .no
  · rw [if_pos he] at h ⊢
    simp only [bind, Except.bind] at h ⊢
    rw [show (rek a n p s).frame = s.frame from rfl]
    cases h2 : orOob (blit s.frame 0 (o.rxData.take 255)) with
    | error u => rw [h2] at h; cases h
    | ok fr =>
      rw [h2] at h
      simp only at h ⊢
      cases h3 : orOob fr.head? with
      | error u => rw [h3] at h; cases h
      | ok b =>
        rw [h3] at h
        simp only at h ⊢
        by_cases hjs : s.joinState = true
        · rw [if_pos hjs] at h
          rw [if_pos (show (rek a n p s).joinState = true from hjs)]
          split at h
          · cases h
          · next z hz =>
            cases h
            obtain ⟨n', p', ev', m1, m2, m3⟩ := rek_handleJoin (a := a) (n := n) (p := p) P (s := { s with frame := fr }) ⟨hf.app, hf.nwk, hf.skey⟩ hz
            generalize hg : handleJoinMsg E' _ _ = q
            rw [show q = _ from hg.symm.trans m1]
            exact ⟨n', p', _, rfl, ⟨m2.app, m2.nwk, m2.skey⟩, by simp [m3, hideKey]⟩
        · rw [if_neg hjs] at h
          rw [if_neg (show ¬(rek a n p s).joinState = true from hjs)]
          split at h
          · cases h
          · next z hz =>
            cases h
            obtain ⟨m1, ev', m2, m3⟩ := rek_handleData (a := a) (n := n) (p := p) P (s := { s with frame := fr }) ⟨hf.app, hf.nwk, hf.skey⟩ hz
            generalize hg : handleDataMsg E' _ _ _ = q
            rw [show q = _ from hg.symm.trans m2]
            have hf' : Fits R a n p z.2.1 := hf.of_keys m1
            exact ⟨n, p, _, rfl, ⟨hf'.app, hf'.nwk, hf'.skey⟩, by simp [m3, hideKey]⟩
  · rw [if_neg he] at h ⊢
    cases h
    exact ⟨n, p, _, rfl, ⟨hf.app, hf.nwk, hf.skey⟩, rfl⟩

/-! ### Operations -/

theorem rek_setRx2 (s : St) (g : U32) (d : Nat) : setRx2 (rek a n p s) g d = ((setRx2 s g d).1, rek a n p (setRx2 s g d).2) := by
  unfold setRx2; split
  · rfl
  · split <;> rfl
theorem rek_setDr (s : St) (d : Nat) : setDr (rek a n p s) d = rek a n p (setDr s d) := by
  unfold setDr; split <;> rfl
theorem rek_setNbTrans (s : St) (b : Byte) : setNbTrans (rek a n p s) b = ((setNbTrans s b).1, rek a n p (setNbTrans s b).2) := by
  unfold setNbTrans setNbTransInt; split <;> rfl
theorem rek_setTxPower (s : St) (b : Byte) : setTxPower (rek a n p s) b = ((setTxPower s b).1, rek a n p (setTxPower s b).2) := by
  unfold setTxPower setTxPowerInt; split <;> rfl
theorem rek_setOff (s : St) (b : Byte) :
    setRx1DrOffset (rek a n p s) b = ((setRx1DrOffset s b).1, rek a n p (setRx1DrOffset s b).2) := by
  unfold setRx1DrOffset; split <;> rfl
theorem rek_setDelay (s : St) (b : Byte) : setRx1Delay (rek a n p s) b = ((setRx1Delay s b).1, rek a n p (setRx1Delay s b).2) := by
  unfold setRx1Delay; split <;> rfl

theorem rek_event (P : Paired E E' R) {m : Byte} {o : Oracle} {s s' : St} {ev : List Ev} (hf : Fits R a n p s)
    (h : evtHandler E o s m = .ok (s', ev)) :
    ∃ n' p' ev', evtHandler E' o (rek a n p s) m = .ok (rek a n' p' s', ev') ∧ Fits R a n' p' s' ∧
      ev'.map hideKey = ev.map hideKey := by
  have hdl : ∀ (err : Err) {e1 : List Ev}, handleDownlink E o { s with phase := .idle } err = .ok (s', e1) →
      ∃ n' p' ev', handleDownlink E' o { rek a n p s with phase := .idle } err = .ok (rek a n' p' s', ev') ∧ Fits R a n' p' s' ∧
        ev'.map hideKey = e1.map hideKey := fun err e1 hd =>
    rek_handleDownlink (a := a) (n := n) (p := p) P (s := { s with phase := .idle }) ⟨hf.app, hf.nwk, hf.skey⟩ hd
  unfold evtHandler at h ⊢
  rw [show (rek a n p s).phase = s.phase from rfl]
  cases hc : s.phase with
  | notInit => rw [hc] at h; cases h; exact ⟨n, p, _, rfl, hf, rfl⟩
  | idle => rw [hc] at h; cases h; exact ⟨n, p, _, rfl, hf, rfl⟩
  | tx =>
    rw [hc] at h
    simp only [evtTx] at h ⊢
    by_cases c : irqTxDone m = true
    · rw [if_pos c] at h ⊢
      simp only [bind, Except.bind] at h ⊢
      rw [show rx1Params (rek a n p s) = rx1Params s from rfl]
      cases h1 : rx1Params s with
      | error u => rw [h1] at h; cases h
      | ok pp =>
        rw [h1] at h
        simp only at h ⊢
        rw [show (rek a n p s).mac = s.mac from rfl]
        cases h2 : macOnTxComplete s.mac o.devTime with
        | error u => rw [h2] at h; cases h
        | ok x =>
          rw [h2] at h
          cases h
          exact ⟨n, p, _, rfl, ⟨hf.app, hf.nwk, hf.skey⟩, rfl⟩
    · rw [if_neg c] at h ⊢
      cases h; exact ⟨n, p, _, rfl, hf, rfl⟩
  | rx1 =>
    rw [hc] at h
    simp only [evtRx1] at h ⊢
    by_cases c : irqRxTimeout m = true
    · rw [if_pos c] at h ⊢
      simp only [bind, Except.bind] at h ⊢
      rw [show (rek a n p s).rx2Dr = s.rx2Dr from rfl]
      cases h1 : orOob (drTable s.rx2Dr) with
      | error u => rw [h1] at h; cases h
      | ok x =>
        rw [h1] at h
        cases h
        exact ⟨n, p, _, rfl, ⟨hf.app, hf.nwk, hf.skey⟩, rfl⟩
    · rw [if_neg c] at h ⊢
      by_cases c : irqRxDone m = true
      · rw [if_pos c] at h ⊢
        simp only [bind, Except.bind] at h ⊢
        split at h
        · cases h
        · next z hz =>
          cases h
          obtain ⟨n', p', ev', k1, k2, k3⟩ := hdl _ hz
          rw [k1]
          exact ⟨n', p', _, rfl, k2, by simp [k3]⟩
      · rw [if_neg c] at h ⊢
        cases h; exact ⟨n, p, _, rfl, hf, rfl⟩
  | rx2 =>
    rw [hc] at h
    simp only [evtRx2] at h ⊢
    by_cases c : irqRxTimeout m = true
    · rw [if_pos c] at h ⊢
      exact hdl _ h
    · rw [if_neg c] at h ⊢
      by_cases c : irqRxDone m = true
      · rw [if_pos c] at h ⊢
        exact hdl _ h
      · rw [if_neg c] at h ⊢
        cases h; exact ⟨n, p, _, rfl, hf, rfl⟩

theorem rek_buildJoin (P : Paired E E' R) {s : St} (hf : Fits R a n p s) (nonce : U32) :
    (buildJoin E' (rek a n p s) nonce).1 = (buildJoin E s nonce).1 ∧
      (buildJoin E' (rek a n p s) nonce).2.map hideKey = (buildJoin E s nonce).2.map hideKey := by
  unfold buildJoin
  simp only
  rw [show (rek a n p s).appEui = s.appEui from rfl, show (rek a n p s).devEui = s.devEui from rfl, show (rek a n p s).appKey = a from rfl]
  have hm := rek_calcMic P hf.app (ss := s.session) (ss' := (rek a n p s).session) rfl rfl rfl
    (0x00 :: (s.appEui.toList ++ s.devEui.toList.reverse ++ [byteOf nonce 0, byteOf nonce 1])) 0 false
  exact ⟨by rw [hm.1], hm.2⟩

theorem rek_buildUplink (P : Paired E E' R) {s : St} (hf : Fits R a n p s) (port : Byte) (pld : Bytes) (c : Bool) :
    (buildUplink E' (rek a n p s) port pld c).1 = (buildUplink E s port pld c).1 ∧
      (buildUplink E' (rek a n p s) port pld c).2.map hideKey = (buildUplink E s port pld c).2.map hideKey := by
  unfold buildUplink
  simp only
  rw [show fCtrl (rek a n p s) = fCtrl s from rfl, show (rek a n p s).mac = s.mac from rfl,
    show (rek a n p s).session.devAddr = s.session.devAddr from rfl, show (rek a n p s).session.fCntUp = s.session.fCntUp from rfl,
    show (rek a n p s).session.nwkSKey = n from rfl, show (rek a n p s).session.appSKey = p from rfl]
  have he := rek_encrypt P hf.skey (ss := s.session) (ss' := (rek a n p s).session) rfl rfl rfl pld 0
  generalize encryptPayload E s.session pld s.session.appSKey 0 = en at he ⊢
  generalize encryptPayload E' (rek a n p s).session pld p 0 = en' at he ⊢
  have hb : (if pld.length ≠ 0 then (port :: en'.1, en'.2) else ([], [])).1 = (if pld.length ≠ 0 then (port :: en.1, en.2) else ([], [])).1 ∧
      (if pld.length ≠ 0 then (port :: en'.1, en'.2) else ([], [])).2.map hideKey =
        (if pld.length ≠ 0 then (port :: en.1, en.2) else ([], [])).2.map hideKey := by
    split
    · exact ⟨by rw [he.1], he.2⟩
    · exact ⟨rfl, rfl⟩
  generalize (if pld.length ≠ 0 then (port :: en'.1, en'.2) else ([], [])) = b' at hb ⊢
  generalize (if pld.length ≠ 0 then (port :: en.1, en.2) else ([], [])) = b at hb ⊢
  rw [hb.1]
  generalize _ ++ b.1 = msg
  have hm := rek_calcMic P hf.nwk (ss := s.session) (ss' := (rek a n p s).session) rfl rfl rfl msg 0 true
  exact ⟨by rw [hm.1], by rw [List.map_append, List.map_append, hb.2, hm.2]⟩

theorem rek_adrHandleUplink (s : St) : adrHandleUplink (rek a n p s) = rek a n p (adrHandleUplink s) := by
  unfold adrHandleUplink
  rw [show (rek a n p s).adr = s.adr from rfl, show (rek a n p s).session.dr = s.session.dr from rfl]
  simp only
  generalize s.adr.ackCnt + 1 = cnt
  by_cases c : s.session.dr ≠ 0 ∧ cnt.toNat > s.adr.ackLimit.toNat + s.adr.ackDelay.toNat
  · rw [if_pos c, if_pos c]; rfl
  · rw [if_neg c, if_neg c]; rfl

theorem adrHandleUplink_keys (s : St) : keysOf (adrHandleUplink s) = keysOf s := by
  unfold adrHandleUplink
  simp only
  split <;> rfl

theorem rek_join (P : Paired E E' R) {s s' : St} {r1 r2 : Nat} {e : Err} {ev : List Ev} (hf : Fits R a n p s)
    (h : uwanJoin E s r1 r2 = .ok (e, s', ev)) :
    keysOf s' = keysOf s ∧ ∃ ev', uwanJoin E' (rek a n p s) r1 r2 = .ok (e, rek a n p s', ev') ∧ ev'.map hideKey = ev.map hideKey := by
  simp only [uwanJoin, bind, Except.bind] at h ⊢
  generalize ht : rek a n p s = t
  by_cases c : s.phase ≠ .idle
  · rw [if_pos c] at h
    rw [if_pos (show t.phase ≠ .idle by rw [← ht]; exact c)]
    cases h; exact ⟨rfl, _, by rw [← ht], rfl⟩
  rw [if_neg c] at h
  rw [if_neg (show ¬ t.phase ≠ .idle by rw [← ht]; exact c)]
  have ec : t.chan = s.chan := by rw [← ht]; rfl
  rw [ec]
  cases h1 : channelsGetNext s.chan r1 with
  | error u => rw [h1] at h; cases h
  | ok g =>
    rw [h1] at h
    simp only at h ⊢
    by_cases c0 : g = 0
    · rw [if_pos c0] at h ⊢
      cases h; exact ⟨rfl, _, by rw [← ht], rfl⟩
    rw [if_neg c0] at h ⊢
    have ec : t.defaultDr = s.defaultDr := by rw [← ht]; rfl
    rw [ec]
    cases h2 : orOob (drTable s.defaultDr) with
    | error u => rw [h2] at h; cases h
    | ok d =>
      rw [h2] at h
      simp only at h ⊢
      have ep : t.pp = s.pp := by rw [← ht]; rfl
      have ef : t.frame = s.frame := by rw [← ht]; rfl
      rw [ep]
      generalize hq : ({ s.pp with sf := d.1, bw := d.2, invertedIq := false } : PktParams) = q at h ⊢
      have e5 : applyTxPower { t with pp := q, defaultDr := s.defaultDr, chan := s.chan } = applyTxPower { s with pp := q } := by
        rw [← ht]; rfl
      rw [e5]
      cases h3 : applyTxPower { s with pp := q } with
      | error u => rw [h3] at h; cases h
      | ok evp =>
        rw [h3] at h
        simp only at h ⊢
        have e6 := rek_buildJoin (a := a) (n := n) (p := p) P (s := { s with pp := q }) ⟨hf.app, hf.nwk, hf.skey⟩ (BitVec.ofNat 32 (r2 % 65536))
        have e7 : buildJoin E' { t with pp := q, defaultDr := s.defaultDr, chan := s.chan } (BitVec.ofNat 32 (r2 % 65536)) =
          buildJoin E' (rek a n p { s with pp := q }) (BitVec.ofNat 32 (r2 % 65536)) := by rw [← ht]; rfl
        rw [e7]
        generalize buildJoin E { s with pp := q } (BitVec.ofNat 32 (r2 % 65536)) = jr at h e6
        generalize buildJoin E' (rek a n p { s with pp := q }) (BitVec.ofNat 32 (r2 % 65536)) = jr' at e6 ⊢
        rw [e6.1, ef]
        cases h4 : orOob (blit s.frame 0 jr.1) with
        | error u => rw [h4] at h; cases h
        | ok g =>
          rw [h4] at h
          cases h
          refine ⟨rfl, _, by rw [← ht]; rfl, ?_⟩
          simp [e6.2]

theorem rek_send (P : Paired E E' R) {s s' : St} {port : Byte} {l : Bytes} {cf : Bool} {rnd : Nat} {e : Err} {ev : List Ev}
    (hf : Fits R a n p s) (h : sendFrame E s port l cf rnd = .ok (e, s', ev)) :
    keysOf s' = keysOf s ∧ ∃ ev', sendFrame E' (rek a n p s) port l cf rnd = .ok (e, rek a n p s', ev') ∧
      ev'.map hideKey = ev.map hideKey := by
  simp only [sendFrame, bind, Except.bind] at h ⊢
  generalize ht : rek a n p s = t
  by_cases c : s.phase ≠ .idle
  · rw [if_pos c] at h
    rw [if_pos (show t.phase ≠ .idle by rw [← ht]; exact c)]
    cases h; exact ⟨rfl, _, by rw [← ht], rfl⟩
  rw [if_neg c] at h
  rw [if_neg (show ¬ t.phase ≠ .idle by rw [← ht]; exact c)]
  have ec : t.chan = s.chan := by rw [← ht]; rfl
  rw [ec]
  cases h1 : channelsGetNext s.chan rnd with
  | error u => rw [h1] at h; cases h
  | ok g =>
    rw [h1] at h
    simp only at h ⊢
    by_cases c0 : g = 0
    · rw [if_pos c0] at h ⊢
      cases h; exact ⟨rfl, _, by rw [← ht], rfl⟩
    rw [if_neg c0] at h ⊢
    have em : getMaxPayloadSize t = getMaxPayloadSize s := by rw [← ht]; rfl
    rw [em]
    by_cases c1 : l.length > getMaxPayloadSize s
    · rw [if_pos c1] at h ⊢
      cases h; exact ⟨rfl, _, by rw [← ht], rfl⟩
    rw [if_neg c1] at h ⊢
    have eq : t.mac = s.mac := by rw [← ht]; rfl
    rw [eq]
    by_cases c2 : l.length = 0 ∧ s.mac.queue.length = 0
    · rw [if_pos c2] at h ⊢
      cases h; exact ⟨rfl, _, by rw [← ht], rfl⟩
    rw [if_neg c2] at h ⊢
    have ec : currentDr t = currentDr s := by rw [← ht]; rfl
    rw [ec]
    cases h2 : orOob (drTable (currentDr s)) with
    | error u => rw [h2] at h; cases h
    | ok d =>
      rw [h2] at h
      simp only at h ⊢
      have ep : t.pp = s.pp := by rw [← ht]; rfl
      have ef : t.frame = s.frame := by rw [← ht]; rfl
      rw [ep]
      generalize hq : ({ s.pp with sf := d.1, bw := d.2, invertedIq := false } : PktParams) = q at h ⊢
      have e5 : applyTxPower { t with pp := q, mac := s.mac, chan := s.chan } = applyTxPower { s with pp := q } := by rw [← ht]; rfl
      rw [e5]
      cases h3 : applyTxPower { s with pp := q } with
      | error u => rw [h3] at h; cases h
      | ok evp =>
        rw [h3] at h
        simp only at h ⊢
        have e6 := rek_buildUplink (a := a) (n := n) (p := p) P (s := { s with pp := q }) ⟨hf.app, hf.nwk, hf.skey⟩ port l cf
        have e7 : buildUplink E' { t with pp := q, mac := s.mac, chan := s.chan } port l cf =
          buildUplink E' (rek a n p { s with pp := q }) port l cf := by rw [← ht]; rfl
        rw [e7]
        generalize buildUplink E { s with pp := q } port l cf = jr at h e6
        generalize buildUplink E' (rek a n p { s with pp := q }) port l cf = jr' at e6 ⊢
        rw [e6.1, ef]
        cases h4 : orOob (blit s.frame 0 jr.1) with
        | error u => rw [h4] at h; cases h
        | ok g =>
          rw [h4] at h
          cases h
          refine ⟨adrHandleUplink_keys _, _, by rw [← ht, ← rek_adrHandleUplink]; rfl, ?_⟩
          simp [e6.2]

/-- Calls with paired keys. -/
inductive OpPair (R : Block → Block → Prop) : Op → Op → Prop where
  | otaa {d a : Vector Byte 8} {k k' : Block} (hk : R k k') : OpPair R (.setOtaaKeys d a k) (.setOtaaKeys d a k')
  | session {addr up down : U32} {n n' p p' : Block} (hn : R n n') (hp : R p p') :
      OpPair R (.setSession addr up down n p) (.setSession addr up down n' p')
  | same (op : Op) (h1 : ∀ d a k, op ≠ .setOtaaKeys d a k) (h2 : ∀ a u d n p, op ≠ .setSession a u d n p) : OpPair R op op

theorem rek_step (P : Paired E E' R) {s s' : St} {op op' : Op} {r : Ret} {ev : List Ev} (hf : Fits R a n p s) (ho : OpPair R op op')
    (h : step E s op = .ok (r, s', ev)) :
    ∃ a' n' p' ev', step E' (rek a n p s) op' = .ok (r, rek a' n' p' s', ev') ∧ Fits R a' n' p' s' ∧
      ev'.map hideKey = ev.map hideKey := by
  cases ho with
  | otaa hk => cases h; exact ⟨_, n, p, _, rfl, ⟨hk, hf.nwk, hf.skey⟩, rfl⟩
  | session hn hp => cases h; exact ⟨a, _, _, _, rfl, ⟨hf.app, hn, hp⟩, rfl⟩
  | same _ h1 h2 =>
  have easy : ∀ {x : St}, keysOf x = keysOf s → Fits R a n p x := fun hx => hf.of_keys hx
  cases op with
  | setOtaaKeys d b k => exact absurd rfl (h1 d b k)
  | setSession b u d x y => exact absurd rfl (h2 b u d x y)
  | init rg =>
    simp only [step] at h ⊢
    cases h
    refine ⟨a, Vector.replicate 16 0, Vector.replicate 16 0, _, ?_, ?_, rfl⟩
    · rw [uwanInit_eq, uwanInit_eq]; rfl
    · rw [uwanInit_eq]; exact ⟨hf.app, P.zero, P.zero⟩
  | setRx2 g d =>
    simp only [step] at h ⊢
    cases h
    rw [rek_setRx2]
    exact ⟨a, n, p, _, rfl, easy (by unfold setRx2; split; rfl; split <;> rfl), rfl⟩
  | setDr d =>
    simp only [step] at h ⊢
    cases h
    rw [rek_setDr]
    exact ⟨a, n, p, _, rfl, easy (by unfold setDr; split <;> rfl), rfl⟩
  | setNbTrans b =>
    simp only [step] at h ⊢
    cases h
    rw [rek_setNbTrans]
    exact ⟨a, n, p, _, rfl, easy (by unfold setNbTrans setNbTransInt; split <;> rfl), rfl⟩
  | setTxPower b =>
    simp only [step] at h ⊢
    cases h
    rw [rek_setTxPower]
    exact ⟨a, n, p, _, rfl, easy (by unfold setTxPower setTxPowerInt; split <;> rfl), rfl⟩
  | setRx1DrOffset b =>
    simp only [step] at h ⊢
    cases h
    rw [rek_setOff]
    exact ⟨a, n, p, _, rfl, easy (by unfold setRx1DrOffset; split <;> rfl), rfl⟩
  | setRx1Delay b =>
    simp only [step] at h ⊢
    cases h
    rw [rek_setDelay]
    exact ⟨a, n, p, _, rfl, easy (by unfold setRx1Delay; split <;> rfl), rfl⟩
  | enableChannel => cases h; exact ⟨a, n, p, _, rfl, easy rfl, rfl⟩
  | setChannel => cases h; exact ⟨a, n, p, _, rfl, easy rfl, rfl⟩
  | setMaxEirp => cases h; exact ⟨a, n, p, _, rfl, easy rfl, rfl⟩
  | adrEnable => cases h; exact ⟨a, n, p, _, rfl, easy rfl, rfl⟩
  | adrSetupAck => cases h; exact ⟨a, n, p, _, rfl, easy rfl, rfl⟩
  | macSetHandlers => cases h; exact ⟨a, n, p, _, rfl, easy rfl, rfl⟩
  | linkCheckReq => cases h; exact ⟨a, n, p, _, rfl, easy rfl, rfl⟩
  | deviceTimeReq => cases h; exact ⟨a, n, p, _, rfl, easy rfl, rfl⟩
  | isJoined => cases h; exact ⟨a, n, p, _, rfl, easy rfl, rfl⟩
  | getMaxPayload => cases h; exact ⟨a, n, p, _, rfl, easy rfl, rfl⟩
  | timer id =>
    cases h
    have e : timerCallback (rek a n p s) id = (rek a n p s, (timerCallback s id).2) := by
      unfold timerCallback
      show (if s.phase = .rx1 ∧ id = .rx1 then _ else if s.phase = .rx2 ∧ id = .rx2 then _ else _) = _
      split
      · rfl
      · split <;> rfl
    have e' : (timerCallback s id).1 = s := by
      unfold timerCallback; split
      · rfl
      · split <;> rfl
    simp only [step]
    rw [e, e']
    exact ⟨a, n, p, _, rfl, hf, rfl⟩
  | join r1 r2 =>
    simp only [step, bind, Except.bind] at h ⊢
    split at h
    · cases h
    · next x hx =>
      cases h
      obtain ⟨k1, ev', k2, k3⟩ := rek_join P hf hx
      rw [k2]
      exact ⟨a, n, p, _, rfl, hf.of_keys k1, k3⟩
  | send po l cf rnd =>
    simp only [step, bind, Except.bind] at h ⊢
    split at h
    · cases h
    · next x hx =>
      cases h
      obtain ⟨k1, ev', k2, k3⟩ := rek_send P hf hx
      rw [k2]
      exact ⟨a, n, p, _, rfl, hf.of_keys k1, k3⟩
  | event m o =>
    simp only [step, bind, Except.bind] at h ⊢
    split at h
    · cases h
    · next x hx =>
      cases h
      obtain ⟨n', p', ev', k1, k2, k3⟩ := rek_event P hf hx
      rw [k1]
      exact ⟨a, n', p', _, rfl, k2, k3⟩

theorem OpPair.valid {op op' : Op} (h : OpPair R op op') (hv : op.Valid) : op'.Valid := by
  cases h with
  | otaa => trivial
  | session => trivial
  | same => exact hv

theorem SameButKeys.snoc {l l' : List Op} {op op' : Op} (h : SameButKeys R l l') (ho : OpPair R op op') :
    SameButKeys R (l ++ [op]) (l' ++ [op']) := by
  cases ho with
  | otaa hk => exact .otaa h hk
  | session hn hp => exact .session h hn hp
  | same _ h1 h2 => exact .same _ h h1 h2

theorem SameButKeys.unsnoc {l : List Op} {op : Op} {l' : List Op} (h : SameButKeys R (l ++ [op]) l') :
    ∃ k op', l' = k ++ [op'] ∧ SameButKeys R l k ∧ OpPair R op op' := by
  generalize hm : l ++ [op] = m at h
  cases h with
  | nil => simp at hm
  | otaa h hk =>
    obtain ⟨rfl, e⟩ := List.append_inj' hm rfl
    cases e; exact ⟨_, _, rfl, h, .otaa hk⟩
  | session h hn hp =>
    obtain ⟨rfl, e⟩ := List.append_inj' hm rfl
    cases e; exact ⟨_, _, rfl, h, .session hn hp⟩
  | same _ h h1 h2 =>
    obtain ⟨rfl, e⟩ := List.append_inj' hm rfl
    cases e; exact ⟨_, _, rfl, h, .same _ h1 h2⟩

theorem rek_hist (P : Paired E E' R) {log : List Item} {s : St} (h : Hist E log s) : ∀ {ops : List Op},
    SameButKeys R (log.map (·.op)) ops → ∃ log' a n p, Hist E' log' (rek a n p s) ∧ Fits R a n p s ∧ log'.map (·.op) = ops ∧
      log'.map outside = log.map outside := by
  induction h with
  | nil =>
    intro ops ho
    have : ops = [] := by
      generalize hm : List.map (·.op) ([] : List Item) = m at ho
      cases ho <;> simp at hm ⊢
    subst this
    exact ⟨[], _, _, _, .nil, ⟨P.zero, P.zero, P.zero⟩, rfl, rfl⟩
  | snoc h hv hs ih =>
    intro ops ho
    rw [List.map_append] at ho
    obtain ⟨k, op', rfl, h1, h2⟩ := SameButKeys.unsnoc ho
    obtain ⟨log', a, n, p, k1, k2, k3, k4⟩ := ih h1
    obtain ⟨a', n', p', ev', m1, m2, m3⟩ := rek_step P k2 h2 hs
    refine ⟨_, a', n', p', .snoc k1 (h2.valid hv) m1, m2, by simp [k3], ?_⟩
    simp only [List.map_append, k4, List.map_cons, List.map_nil, outside, m3]

end Uwan
