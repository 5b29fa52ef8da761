import Verif.Lemmas.Like

/-!
# The high-water mark of the channel table

`mrk m s` is `s` with another number `max_channels_count`. The number only decides which channel a random value picks.
-/

namespace Uwan
open Spec

variable {E : Env}

/-- `c` with another high-water mark. -/
def Chan.top (c : Chan) (m : Nat) : Chan := { c with maxCount := m }

/-- `s` with another high-water mark. -/
def mrk (m : Nat) (s : St) : St := { s with chan := s.chan.top m }

theorem mrk_self (s : St) : mrk s.chan.maxCount s = s := rfl

variable {m : Nat}

theorem mk_enable (c : Chan) (i : Nat) (b : Bool) :
    ∃ m', enableChannel (c.top m) i b = ((enableChannel c i b).1, (enableChannel c i b).2.top m') := by
  unfold enableChannel
  by_cases h : 16 ≤ i
  · rw [if_pos h, if_pos h]; exact ⟨m, rfl⟩
  · rw [if_neg h, if_neg h]
    cases b with
    | false => exact ⟨_, rfl⟩
    | true =>
      rw [if_pos rfl, if_pos rfl]
      have e : (c.top m).freqAt i = c.freqAt i := rfl
      rw [e]
      by_cases h : c.freqAt i = 0
      · rw [if_pos h, if_pos h]; exact ⟨m, rfl⟩
      · rw [if_neg h, if_neg h]; exact ⟨_, rfl⟩

theorem mk_setChannel (c : Chan) (i : Nat) (f : U32) :
    ∃ m', setChannel (c.top m) i f = ((setChannel c i f).1, (setChannel c i f).2.top m') := by
  unfold setChannel
  by_cases h : 16 ≤ i
  · rw [if_pos h, if_pos h]; exact ⟨m, rfl⟩
  · rw [if_neg h, if_neg h]
    by_cases h : (!isValidFrequency f) = true
    · rw [if_pos h, if_pos h]; exact ⟨m, rfl⟩
    · rw [if_neg h, if_neg h]
      obtain ⟨m', e⟩ := mk_enable (m := m) { c with freq := c.freq.setIfInBounds i f } i true
      have e' := congrArg Prod.snd e
      exact ⟨m', Prod.ext rfl e'⟩

theorem mk_fold {g : Chan → Nat → Chan} (hg : ∀ c i m, ∃ m', g (Chan.top c m) i = (g c i).top m') :
    ∀ (l : List Nat) (c : Chan) (m : Nat), ∃ m', l.foldl g (c.top m) = (l.foldl g c).top m'
  | [], _, m => ⟨m, rfl⟩
  | i :: l, c, m => by
    obtain ⟨m', e⟩ := hg c i m
    rw [List.foldl_cons, List.foldl_cons, e]
    exact mk_fold hg l _ _

theorem mk_applyMask (c : Chan) (x : U16) : ∃ m', applyChMask (c.top m) x = (applyChMask c x).top m' :=
  mk_fold (g := fun c i => (enableChannel c i (x.getLsbD i)).2) (fun c i m => by
    obtain ⟨m', e⟩ := mk_enable (m := m) c i (x.getLsbD i)
    exact ⟨m', congrArg Prod.snd e⟩) (List.range 16) c m

theorem mk_enableAll (c : Chan) : ∃ m', channelsEnableAll (c.top m) = (channelsEnableAll c).top m' :=
  mk_fold (g := fun c i => if c.freqAt i ≠ 0 then c.turnOn i else c) (fun c i m => by
    by_cases h : c.freqAt i ≠ 0
    · refine ⟨if m < i + 1 then i + 1 else m, ?_⟩
      rw [if_pos h]
      exact if_pos h
    · refine ⟨m, ?_⟩
      rw [if_neg h]
      exact if_neg h) (List.range 16) c m

theorem mk_chMask (c : Chan) (x : U16) (n : Nat) (b : Bool) :
    ∃ m', handleAdrChMask (c.top m) x n b = ((handleAdrChMask c x n b).1, (handleAdrChMask c x n b).2.top m') := by
  unfold handleAdrChMask
  by_cases h : n = 0
  · rw [if_pos h, if_pos h]
    cases b with
    | true => exact ⟨m, rfl⟩
    | false =>
      obtain ⟨m', e⟩ := mk_applyMask (m := m) c x
      rw [e]
      exact ⟨m', rfl⟩
  · rw [if_neg h, if_neg h]
    by_cases h : n = 6
    · rw [if_pos h, if_pos h]
      cases b with
      | true => exact ⟨m, rfl⟩
      | false =>
        obtain ⟨m', e⟩ := mk_enableAll (m := m) c
        simp only [Bool.false_eq_true, ↓reduceIte, e]
        exact ⟨m', rfl⟩
    · rw [if_neg h, if_neg h]; exact ⟨m, rfl⟩

theorem mk_cflist (first : Nat) : ∀ (n i : Nat) (l : Bytes) (c c' : Chan) (m : Nat), cflistLoop first n i l c = .ok c' →
    ∃ m', cflistLoop first n i l (c.top m) = .ok (c'.top m')
  | 0, _, _, _, _, m, h => by cases h; exact ⟨m, rfl⟩
  | _ + 1, _, [], _, _, _, h => by cases h
  | _ + 1, _, [_], _, _, _, h => by cases h
  | _ + 1, _, [_, _], _, _, _, h => by cases h
  | n + 1, i, a :: b :: d :: l, c, c', m, h => by
      simp only [cflistLoop] at h ⊢
      by_cases k : or24 a b d = 0
      · rw [if_pos k] at h ⊢
        obtain ⟨m', e⟩ := mk_enable (m := m) c ((i + first) % 256) false
        rw [e]
        exact mk_cflist first n _ _ _ _ _ h
      · rw [if_neg k] at h ⊢
        obtain ⟨m', e⟩ := mk_setChannel (m := m) c ((i + first) % 256) (or24 a b d * 100)
        rw [e]
        exact mk_cflist first n _ _ _ _ _ h

theorem mk_pick {c : Chan} (hc : ChanInv c) (hm : ChanInv (c.top m)) {r : Nat} {g : U32} (h : channelsGetNext c r = .ok g) :
    ∃ r', channelsGetNext (c.top m) r' = .ok g := by
  rcases channelsGetNext_spec hc r with ⟨f, h1, i, hi, hs, rfl⟩ | ⟨h1, h2⟩
  · rw [h1] at h
    cases h
    refine ⟨i, ?_⟩
    have hlt : i < m := hm.lt_max i hi hs
    unfold channelsGetNext
    rw [if_neg (show ¬ (c.top m).maxCount = 0 by show ¬ m = 0; omega)]
    have e : i % (c.top m).maxCount % 256 = i := by
      show i % m % 256 = i
      rw [Nat.mod_eq_of_lt hlt, Nat.mod_eq_of_lt (by omega)]
    simp only [e]
    unfold getNextLoop
    rw [if_neg (by omega), if_pos (show (c.top m).mask.isSet i = true from hs)]
    rfl
  · rw [h1] at h
    cases h
    refine ⟨0, ?_⟩
    rcases channelsGetNext_spec hm 0 with ⟨f, _, i, hi, hs, _⟩ | ⟨h3, _⟩
    · have : c.mask.isSet i = true := hs
      rw [h2 i hi] at this
      cases this
    · exact h3

/-! ### Commands -/

theorem mrk_linkAdrApply (s : St) (a : Byte) (x : U16) (r : Byte) :
    ∃ m', linkAdrApply (mrk m s) a x r = mrk m' (linkAdrApply s a x r) := by
  have h1 : ∀ (s : St) (n : Byte), linkAdrNbTrans (mrk m s) n = mrk m (linkAdrNbTrans s n) := by
    intro s n
    unfold linkAdrNbTrans setNbTransInt resetNbTrans
    simp only
    split <;> rfl
  have h2 : ∀ (s : St) (n : Byte), (setTxPowerInt (mrk m s) n).2 = mrk m (setTxPowerInt s n).2 := by
    intro s n
    unfold setTxPowerInt
    split <;> rfl
  unfold linkAdrApply
  simp only [h1, h2]
  generalize (setTxPowerInt (linkAdrNbTrans s (r &&& 15)) (a &&& 15)).2 = s1
  obtain ⟨m', e⟩ := mk_chMask (m := m) s1.chan x (linkAdrCntl r) false
  rw [show handleAdrChMask (mrk m s1).chan x (linkAdrCntl r) false = _ from e]
  exact ⟨m', rfl⟩

theorem mrk_handler (h : MacHandler) {s s' : St} {pld : Bytes} {bat : Byte} {b : Bool} {ev : List Ev}
    (hs : runHandler h s pld bat = .ok (b, s', ev)) : ∃ m', runHandler h (mrk m s) pld bat = .ok (b, mrk m' s', ev) := by
  cases h with
  | linkCheck =>
    refine ⟨m, ?_⟩
    simp only [runHandler, hLinkCheck] at hs ⊢
    show (match s.mac.cbs with | some cbs => _ | none => _) = _
    split at hs
    · split at hs
      · split at hs
        · cases hs; simp_all
        · cases hs
      · cases hs; simp_all
    · cases hs; simp_all
  | linkAdr =>
    simp only [runHandler, hLinkAdr] at hs ⊢
    split at hs
    · cases hs
    · next rg a b c d t hr =>
      cases hs
      have : (mrk m s).region = some rg := hr
      rw [this]
      obtain ⟨m', e⟩ := mrk_linkAdrApply (m := m) s a (or16 b c) d
      obtain ⟨m2, e2⟩ := mk_chMask (m := m) s.chan (or16 b c) (linkAdrCntl d) true
      have e1 : linkAdrStatus (mrk m s) a (or16 b c) d = linkAdrStatus s a (or16 b c) d := by
        unfold linkAdrStatus
        rw [show handleAdrChMask (mrk m s).chan (or16 b c) (linkAdrCntl d) true = _ from e2]
      simp only [adrHandleLinkReq, e, e1]
      by_cases k : linkAdrStatus s a (or16 b c) d = 7
      · simp only [if_pos k]; exact ⟨m', rfl⟩
      · simp only [if_neg k]; exact ⟨m, rfl⟩
    · cases hs
  | dutyCycle => cases hs; exact ⟨m, rfl⟩
  | rxParamSetup =>
    refine ⟨m, ?_⟩
    simp only [runHandler, hRxParamSetup] at hs ⊢
    split at hs
    · cases hs
      have e : ∀ a b g, rxParamApply (mrk m s) a b g = mrk m (rxParamApply s a b g) := by
        intro a b g
        unfold rxParamApply setRx2 setRx1DrOffset mrk
        simp only
        split <;> split <;> (try split) <;> rfl
      simp only [e]
      split <;> rfl
    · cases hs
  | devStatus =>
    refine ⟨m, ?_⟩
    simp only [runHandler, hDevStatus] at hs ⊢
    show (match s.mac.cbs with | some cbs => _ | none => _) = _
    split at hs
    · split at hs <;> cases hs <;> simp_all <;> exact ⟨rfl, rfl⟩
    · cases hs; simp_all; exact ⟨rfl, rfl⟩
  | newChannel =>
    simp only [runHandler, hNewChannel] at hs ⊢
    split at hs
    · next idx a b c dr t =>
      cases hs
      have : ∃ m', newChannelRes (mrk m s).chan idx (or24 a b c * 100) dr =
          ((newChannelRes s.chan idx (or24 a b c * 100) dr).1, (newChannelRes s.chan idx (or24 a b c * 100) dr).2.top m') := by
        unfold newChannelRes
        simp only
        generalize (if dr = 80 then (if isValidFrequency (or24 a b c * 100) = true then (1 : Byte) else 0) ||| 2
          else if isValidFrequency (or24 a b c * 100) = true then 1 else 0) = r
        by_cases k : r = 3
        · obtain ⟨m', e⟩ := mk_setChannel (m := m) s.chan idx.toNat (or24 a b c * 100)
          rw [if_pos k, if_pos k, show setChannel (mrk m s).chan idx.toNat (or24 a b c * 100) = _ from e]
          exact ⟨m', rfl⟩
        · rw [if_neg k, if_neg k]; exact ⟨m, rfl⟩
      obtain ⟨m', e⟩ := this
      rw [e]
      exact ⟨m', rfl⟩
    · cases hs
  | rxTimingSetup =>
    refine ⟨m, ?_⟩
    simp only [runHandler, hRxTimingSetup] at hs ⊢
    split at hs
    · cases hs
      simp only [setRx1Delay]
      split <;> split <;> first | rfl | contradiction
    · cases hs
  | txParamSetup => cases hs; exact ⟨m, rfl⟩
  | diChannel => cases hs; exact ⟨m, rfl⟩
  | deviceTime =>
    refine ⟨m, ?_⟩
    simp only [runHandler, hDeviceTime] at hs ⊢
    show (match s.mac.cbs with | some cbs => _ | none => _) = _
    split at hs
    · split at hs
      · split at hs
        · cases hs; simp_all; rfl
        · cases hs
      · cases hs; simp_all
    · cases hs; simp_all

theorem mrk_loop (bat : Nat → Byte) : ∀ (n : Nat) {m : Nat} {s s' : St} {l : Bytes} {ev : List Ev}, macLoop bat n s l = .ok (s', ev) →
    ∃ m', macLoop bat n (mrk m s) l = .ok (mrk m' s', ev)
  | n, m, _, _, [], _, h => by refine ⟨m, ?_⟩; cases n <;> (cases h; rfl)
  | 0, _, _, _, _ :: _, _, h => by cases h
  | n + 1, m, s, s', cid :: rest, ev, h => by
    unfold macLoop at h ⊢
    split at h
    · cases h; exact ⟨m, rfl⟩
    · next c hc =>
      simp only
      split at h
      · next hl =>
        rw [if_pos hl]
        cases hr : runHandler c.handler s rest (bat rest.length) with
        | error u => rw [hr] at h; cases h
        | ok x =>
          obtain ⟨b, s1, e1⟩ := x
          rw [hr] at h
          obtain ⟨m1, k1⟩ := mrk_handler (m := m) c.handler hr
          rw [k1]
          simp only [bind, Except.bind] at h ⊢
          split at h
          · next hb =>
            simp only [hb, if_true]
            cases hm : macLoop bat n s1 (rest.drop c.pldSize) with
            | error u => rw [hm] at h; cases h
            | ok y =>
              obtain ⟨s2, e2⟩ := y
              rw [hm] at h
              obtain ⟨m2, k2⟩ := mrk_loop bat n (m := m1) hm
              rw [k2]
              cases h; exact ⟨m2, rfl⟩
          · next hb =>
            cases h
            simp only [hb]; exact ⟨m1, rfl⟩
      · next hl =>
        cases h
        rw [if_neg hl]; exact ⟨m, rfl⟩

/-! ### Packets -/

theorem mrk_dataFinish {s s' : St} {pk pk' : DlPkt} {pld : Option Bytes} {buf : Bytes} {off : Nat} {e : Err} {ev : List Ev}
    (h : dataFinish E s pk pld buf off = .ok (e, s', pk', ev)) :
    dataFinish E (mrk m s) pk pld buf off = .ok (e, mrk m s', pk', ev) := by
  unfold dataFinish at h ⊢
  simp only at h ⊢
  show (if buf.drop (buf.length - 4) ≠ (calcMic E s.session (buf.take (buf.length - 4)) s.session.nwkSKey 1 true).1 then _ else _) = _
  split at h
  · next hm => cases h; rw [if_pos hm]; rfl
  · next hm =>
    rw [if_neg hm]
    split at h
    · next b l =>
      have hsess : (mrk m s).session = s.session := rfl
      have hfr : (mrk m s).frame = s.frame := rfl
      rw [hsess, hfr]
      simp only [bind, Except.bind] at h ⊢
      split at h
      · cases h
      · next x hx =>
        cases h
        rfl
    · cases h; rfl

theorem mrk_dataCmds {bat : Nat → Byte} {s s' : St} {fo : Nat} {l : Bytes} {ev : List Ev} (h : dataCmds bat s fo l = .ok (s', ev)) :
    ∃ m', dataCmds bat (mrk m s) fo l = .ok (mrk m' s', ev) := by
  unfold dataCmds at h ⊢
  split at h
  · next hf => rw [if_pos hf]; exact mrk_loop bat _ h
  · next hf => rw [if_neg hf]; cases h; exact ⟨m, rfl⟩

theorem mrk_dataBody {bat : Nat → Byte} {s s' : St} {pk pk' : DlPkt} {buf rest : Bytes} {fo : Nat} {e : Err} {ev : List Ev}
    (h : dataBody E bat s pk buf rest fo = .ok (e, s', pk', ev)) :
    ∃ m', dataBody E bat (mrk m s) pk buf rest fo = .ok (e, mrk m' s', pk', ev) := by
  unfold dataBody at h ⊢
  simp only [bind, Except.bind] at h ⊢
  cases h1 : dataCmds bat { s with snr := pk.snr } fo rest with
  | error u => rw [h1] at h; cases h
  | ok x =>
    obtain ⟨s1, e1⟩ := x
    rw [h1] at h
    obtain ⟨m', k1⟩ := mrk_dataCmds (m := m) h1
    rw [show dataCmds bat { mrk m s with snr := pk.snr } fo rest = .ok (mrk m' s1, e1) from k1]
    simp only at h ⊢
    cases h2 : dataTail pk (buf.length - (12 + fo)) (rest.drop fo) with
    | error u => rw [h2] at h; cases h
    | ok y =>
      obtain ⟨pk2, pld⟩ := y
      rw [h2] at h
      simp only at h ⊢
      cases h3 : dataFinish E s1 pk2 pld buf (8 + fo + 1) with
      | error u => rw [h3] at h; cases h
      | ok z =>
        obtain ⟨e2, s2, pk3, ev2⟩ := z
        rw [h3] at h
        cases h
        refine ⟨m', ?_⟩
        rw [mrk_dataFinish h3]

theorem mrk_handleData {bat : Nat → Byte} {s s' : St} {pk pk' : DlPkt} {e : Err} {ev : List Ev}
    (h : handleDataMsg E bat s pk = .ok (e, s', pk', ev)) :
    ∃ m', handleDataMsg E bat (mrk m s) pk = .ok (e, mrk m' s', pk', ev) := by
  unfold handleDataMsg at h ⊢
  split at h
  · cases h
  · next buf hb =>
    split at h
    · next c => cases h; exact ⟨m, by rw [if_pos c]⟩
    · next c =>
      rw [if_neg c]
      split at h
      · next _ mhdr a0 a1 a2 a3 fctrl c0 c1 rest =>
        simp only at h ⊢
        split at h
        · next c => cases h; exact ⟨m, by rw [if_pos c]⟩
        · next c =>
          rw [if_neg c]
          split at h
          · next c => cases h; exact ⟨m, by rw [if_pos c]⟩
          · next c =>
            rw [if_neg c]
            have hm : markAck (mrk m s) ((mhdr >>> 5) &&& 7) = mrk m (markAck s ((mhdr >>> 5) &&& 7)) := by
              unfold markAck; split <;> rfl
            rw [hm]
            generalize markAck s ((mhdr >>> 5) &&& 7) = s0 at *
            show ∃ m', (if s0.session.devAddr ≠ or32 a0 a1 a2 a3 then _ else _) = _
            have hx : (mrk m s0).session = s0.session := rfl
            by_cases k1 : s0.session.devAddr ≠ or32 a0 a1 a2 a3
            · rw [if_pos k1] at h ⊢
              cases h; exact ⟨m, rfl⟩
            · rw [if_neg k1] at h ⊢
              by_cases k2 : (mhdr :: a0 :: a1 :: a2 :: a3 :: fctrl :: c0 :: c1 :: rest).length < 12 + (fctrl &&& 15).toNat
              · rw [if_pos k2] at h ⊢
                cases h; exact ⟨m, rfl⟩
              · rw [if_neg k2] at h ⊢
                rw [hx]
                split at h
                · next d => cases h; exact ⟨m, rfl⟩
                · next d hd =>
                  simp only [bind, Except.bind] at h ⊢
                  split at h
                  · cases h
                  · next v h3 =>
                    cases h
                    obtain ⟨m', m3⟩ := mrk_dataBody (m := m) h3
                    refine ⟨m', ?_⟩
                    rw [show dataBody E bat { mrk m s0 with session := { s0.session with fCntDown := d } } pk _ rest _ = _ from m3]
      · cases h

theorem mrk_joinAccepted {s s' : St} {buf : Bytes} {cf : Bool} {ev : List Ev} (h : joinAccepted E s buf cf = .ok (s', ev)) :
    ∃ m', joinAccepted E (mrk m s) buf cf = .ok (mrk m' s', ev) := by
  unfold joinAccepted at h ⊢
  split at h
  · next n0 n1 n2 i0 i1 i2 a0 a1 a2 a3 dl dly rest =>
    simp only [bind, Except.bind] at h ⊢
    have hr : joinRxParams (mrk m s) dl dly = mrk m (joinRxParams s dl dly) := by
      unfold joinRxParams mrk
      simp only
      repeat' split
      all_goals rfl
    rw [hr]
    cases h1 : joinCflist (joinRxParams s dl dly) cf rest with
    | error u => rw [h1] at h; cases h
    | ok x =>
      have hc : ∃ m', joinCflist (mrk m (joinRxParams s dl dly)) cf rest = .ok (x.top m') := by
        unfold joinCflist at h1 ⊢
        cases cf with
        | false => cases h1; exact ⟨m, rfl⟩
        | true =>
          rw [if_pos rfl] at h1 ⊢
          have e : (mrk m (joinRxParams s dl dly)).region = (joinRxParams s dl dly).region := rfl
          rw [e]
          cases hg : (joinRxParams s dl dly).region with
          | none => rw [hg] at h1; cases h1
          | some r =>
            rw [hg] at h1
            simp only [handleCflist, bind, Except.bind] at h1 ⊢
            cases ht : orOob rest[15]? with
            | error u => rw [ht] at h1; cases h1
            | ok ty =>
              rw [ht] at h1
              simp only at h1 ⊢
              by_cases k : ty ≠ 0
              · rw [if_pos k] at h1 ⊢
                cases h1; exact ⟨m, rfl⟩
              · rw [if_neg k] at h1 ⊢
                exact mk_cflist _ _ _ _ _ _ _ h1
      obtain ⟨m', hc⟩ := hc
      rw [h1] at h
      rw [hc]
      cases h; exact ⟨m', rfl⟩
  · cases h

theorem mrk_joinFinish {s s' : St} {pk pk' : DlPkt} {buf : Bytes} {cf : Bool} {e : Err} {ev : List Ev}
    (h : joinFinish E s pk buf cf = .ok (e, s', pk', ev)) :
    ∃ m', joinFinish E (mrk m s) pk buf cf = .ok (e, mrk m' s', pk', ev) := by
  unfold joinFinish at h ⊢
  simp only at h ⊢
  have e1 : (mrk m s).session = s.session := rfl
  have e2 : (mrk m s).appKey = s.appKey := rfl
  rw [e1, e2]
  by_cases c : buf.drop (buf.length - 4) ≠ (calcMic E s.session (buf.take (buf.length - 4)) s.appKey 0 false).1
  · rw [if_pos c] at h ⊢
    cases h; exact ⟨m, rfl⟩
  · rw [if_neg c] at h ⊢
    cases h1 : joinAccepted E s buf cf with
    | error u => rw [h1] at h; cases h
    | ok x =>
      rw [h1] at h
      cases h
      obtain ⟨m', k1⟩ := mrk_joinAccepted (m := m) h1
      exact ⟨m', by rw [k1]; rfl⟩

theorem mrk_handleJoin {s s' : St} {pk pk' : DlPkt} {e : Err} {ev : List Ev} (h : handleJoinMsg E s pk = .ok (e, s', pk', ev)) :
    ∃ m', handleJoinMsg E (mrk m s) pk = .ok (e, mrk m' s', pk', ev) := by
  unfold handleJoinMsg at h ⊢
  split at h
  · cases h
  · next buf hb =>
    split at h
    · next c => cases h; exact ⟨m, by rw [if_pos c]⟩
    · next c =>
      rw [if_neg c]
      split at h
      · cases h
      · next mhdr body =>
        split at h
        · next c => cases h; exact ⟨m, by rw [if_pos c]⟩
        · next c =>
          rw [if_neg c]
          simp only [bind, Except.bind] at h ⊢
          have hk : (mrk m s).appKey = s.appKey := rfl
          have hf : (mrk m s).frame = s.frame := rfl
          rw [hk, hf]
          cases h1 : joinDecrypt E s.appKey body (decide (body.length = 32)) with
          | error u => rw [h1] at h; cases h
          | ok x =>
            rw [h1] at h
            simp only at h ⊢
            cases h2 : orOob (blit s.frame 0 (mhdr :: x.1)) with
            | error u => rw [h2] at h; cases h
            | ok fr =>
              rw [h2] at h
              simp only at h ⊢
              cases h3 : joinFinish E { s with frame := fr } { pk with data := some (mhdr :: x.1) } (mhdr :: x.1) (decide (body.length = 32)) with
              | error u => rw [h3] at h; cases h
              | ok z =>
                rw [h3] at h
                cases h
                obtain ⟨m', m1⟩ := mrk_joinFinish (m := m) h3
                refine ⟨m', ?_⟩
                generalize hg : joinFinish E _ _ _ _ = q
                rw [show q = _ from hg.symm.trans m1]

theorem mrk_handleDownlink {o : Oracle} {s s' : St} {err : Err} {ev : List Ev} (h : handleDownlink E o s err = .ok (s', ev)) :
    ∃ m', handleDownlink E o (mrk m s) err = .ok (mrk m' s', ev) := by
  unfold handleDownlink at h ⊢
  by_cases he : err = .no
  · rw [if_pos he] at h ⊢
    simp only [bind, Except.bind] at h ⊢
    have hf : (mrk m s).frame = s.frame := rfl
    rw [hf]
    cases h2 : orOob (blit s.frame 0 (o.rxData.take 255)) with
    | error u => rw [h2] at h; cases h
    | ok fr =>
      rw [h2] at h
      simp only at h ⊢
      cases h3 : orOob fr.head? with
      | error u => rw [h3] at h; cases h
      | ok b =>
        rw [h3] at h
        simp only at h ⊢
        by_cases hjs : s.joinState = true
        · rw [if_pos hjs] at h
          rw [if_pos (show (mrk m s).joinState = true from hjs)]
          split at h
          · cases h
          · next z hz =>
            cases h
            obtain ⟨m', m3⟩ := mrk_handleJoin (m := m) hz
            generalize hg : handleJoinMsg E _ _ = q
            rw [show q = _ from hg.symm.trans m3]
            exact ⟨m', rfl⟩
        · rw [if_neg hjs] at h
          rw [if_neg (show ¬(mrk m s).joinState = true from hjs)]
          split at h
          · cases h
          · next z hz =>
            cases h
            obtain ⟨m', m3⟩ := mrk_handleData (m := m) hz
            generalize hg : handleDataMsg E _ _ _ = q
            rw [show q = _ from hg.symm.trans m3]
            exact ⟨m', rfl⟩
  · rw [if_neg he] at h ⊢
    cases h
    exact ⟨m, rfl⟩

/-! ### Operations -/

theorem mrk_event {x : Byte} {o : Oracle} {s s' : St} {ev : List Ev} (h : evtHandler E o s x = .ok (s', ev)) :
    ∃ m', evtHandler E o (mrk m s) x = .ok (mrk m' s', ev) := by
  unfold evtHandler at h ⊢
  have hph : (mrk m s).phase = s.phase := rfl
  rw [hph]
  cases hc : s.phase with
  | notInit => rw [hc] at h; cases h; exact ⟨m, rfl⟩
  | idle => rw [hc] at h; cases h; exact ⟨m, rfl⟩
  | tx =>
    rw [hc] at h
    simp only [evtTx] at h ⊢
    by_cases c : irqTxDone x = true
    · rw [if_pos c] at h ⊢
      simp only [bind, Except.bind] at h ⊢
      have e : rx1Params (mrk m s) = rx1Params s := rfl
      rw [e]
      cases h1 : rx1Params s with
      | error u => rw [h1] at h; cases h
      | ok pp =>
        rw [h1] at h
        simp only at h ⊢
        have e : (mrk m s).mac = s.mac := rfl
        rw [e]
        cases h2 : macOnTxComplete s.mac o.devTime with
        | error u => rw [h2] at h; cases h
        | ok y =>
          rw [h2] at h
          cases h
          exact ⟨m, rfl⟩
    · rw [if_neg c] at h ⊢
      cases h; exact ⟨m, rfl⟩
  | rx1 =>
    rw [hc] at h
    simp only [evtRx1] at h ⊢
    by_cases c : irqRxTimeout x = true
    · rw [if_pos c] at h ⊢
      simp only [bind, Except.bind] at h ⊢
      have e : (mrk m s).rx2Dr = s.rx2Dr := rfl
      rw [e]
      cases h1 : orOob (drTable s.rx2Dr) with
      | error u => rw [h1] at h; cases h
      | ok y => rw [h1] at h; cases h; exact ⟨m, rfl⟩
    · rw [if_neg c] at h ⊢
      by_cases c : irqRxDone x = true
      · rw [if_pos c] at h ⊢
        simp only [bind, Except.bind] at h ⊢
        split at h
        · cases h
        · next z hz =>
          cases h
          obtain ⟨m', k1⟩ := mrk_handleDownlink (m := m) hz
          refine ⟨m', ?_⟩
          generalize hg : handleDownlink E _ _ _ = q
          rw [show q = _ from hg.symm.trans k1]
      · rw [if_neg c] at h ⊢
        cases h; exact ⟨m, rfl⟩
  | rx2 =>
    rw [hc] at h
    simp only [evtRx2] at h ⊢
    by_cases c : irqRxTimeout x = true
    · rw [if_pos c] at h ⊢
      obtain ⟨m', k1⟩ := mrk_handleDownlink (m := m) h
      refine ⟨m', ?_⟩
      generalize hg : handleDownlink E _ _ _ = q
      rw [show q = _ from hg.symm.trans k1]
    · rw [if_neg c] at h ⊢
      by_cases c : irqRxDone x = true
      · rw [if_pos c] at h ⊢
        obtain ⟨m', k1⟩ := mrk_handleDownlink (m := m) h
        refine ⟨m', ?_⟩
        generalize hg : handleDownlink E _ _ _ = q
        rw [show q = _ from hg.symm.trans k1]
      · rw [if_neg c] at h ⊢
        cases h; exact ⟨m, rfl⟩

/-- The same operation, perhaps with another random number for the choice of the channel. -/
inductive OpLike : Op → Op → Prop where
  | same (op : Op) : OpLike op op
  | join (r r' n : Nat) : OpLike (.join r n) (.join r' n)
  | send (port : Byte) (pld : Bytes) (c : Bool) (r r' : Nat) : OpLike (.send port pld c r) (.send port pld c r')

theorem step_mrk {s s' : St} {op : Op} {r : Ret} {ev : List Ev} (hi : Inv s) (hm : ChanInv (s.chan.top m))
    (h : step E s op = .ok (r, s', ev)) : ∃ op' m', OpLike op op' ∧ step E (mrk m s) op' = .ok (r, mrk m' s', ev) := by
  cases op with
  | init rg =>
    cases h
    refine ⟨_, (uwanInit (mrk m s) rg).1.chan.maxCount, .same _, ?_⟩
    simp only [step]
    have e2 : (uwanInit (mrk m s) rg).2 = (uwanInit s rg).2 := rfl
    rw [e2]
    have e1 : (uwanInit (mrk m s) rg).1 = mrk (uwanInit (mrk m s) rg).1.chan.maxCount (uwanInit s rg).1 := by
      rw [uwanInit_eq, uwanInit_eq]
      rfl
    rw [← e1]
  | setRx2 g d =>
    cases h
    refine ⟨_, m, .same _, ?_⟩
    simp only [step]
    have e : setRx2 (mrk m s) g d = ((setRx2 s g d).1, mrk m (setRx2 s g d).2) := by
      unfold setRx2; split
      · rfl
      · split <;> rfl
    rw [e]
  | setDr d =>
    cases h
    refine ⟨_, m, .same _, ?_⟩
    simp only [step]
    have e : setDr (mrk m s) d = mrk m (setDr s d) := by unfold setDr; split <;> rfl
    rw [e]
  | setNbTrans n =>
    cases h
    refine ⟨_, m, .same _, ?_⟩
    simp only [step]
    have e : setNbTrans (mrk m s) n = ((setNbTrans s n).1, mrk m (setNbTrans s n).2) := by
      unfold setNbTrans setNbTransInt; split <;> rfl
    rw [e]
  | setTxPower n =>
    cases h
    refine ⟨_, m, .same _, ?_⟩
    simp only [step]
    have e : setTxPower (mrk m s) n = ((setTxPower s n).1, mrk m (setTxPower s n).2) := by
      unfold setTxPower setTxPowerInt; split <;> rfl
    rw [e]
  | setRx1DrOffset n =>
    cases h
    refine ⟨_, m, .same _, ?_⟩
    simp only [step]
    have e : setRx1DrOffset (mrk m s) n = ((setRx1DrOffset s n).1, mrk m (setRx1DrOffset s n).2) := by
      unfold setRx1DrOffset; split <;> rfl
    rw [e]
  | setRx1Delay n =>
    cases h
    refine ⟨_, m, .same _, ?_⟩
    simp only [step]
    have e : setRx1Delay (mrk m s) n = ((setRx1Delay s n).1, mrk m (setRx1Delay s n).2) := by
      unfold setRx1Delay; split <;> rfl
    rw [e]
  | setOtaaKeys => cases h; exact ⟨_, m, .same _, rfl⟩
  | setSession => cases h; exact ⟨_, m, .same _, rfl⟩
  | enableChannel i b =>
    cases h
    obtain ⟨m', e⟩ := mk_enable (m := m) s.chan i.toNat b
    refine ⟨_, m', .same _, ?_⟩
    simp only [step]
    rw [show enableChannel (mrk m s).chan i.toNat b = _ from e]
    rfl
  | setChannel i g =>
    cases h
    obtain ⟨m', e⟩ := mk_setChannel (m := m) s.chan i.toNat g
    refine ⟨_, m', .same _, ?_⟩
    simp only [step]
    rw [show setChannel (mrk m s).chan i.toNat g = _ from e]
    rfl
  | setMaxEirp => cases h; exact ⟨_, m, .same _, rfl⟩
  | adrEnable => cases h; exact ⟨_, m, .same _, rfl⟩
  | adrSetupAck => cases h; exact ⟨_, m, .same _, rfl⟩
  | macSetHandlers => cases h; exact ⟨_, m, .same _, rfl⟩
  | linkCheckReq => cases h; exact ⟨_, m, .same _, rfl⟩
  | deviceTimeReq => cases h; exact ⟨_, m, .same _, rfl⟩
  | isJoined => cases h; exact ⟨_, m, .same _, rfl⟩
  | getMaxPayload => cases h; exact ⟨_, m, .same _, rfl⟩
  | timer id =>
    cases h
    have e : timerCallback (mrk m s) id = (mrk m (timerCallback s id).1, (timerCallback s id).2) := by
      unfold timerCallback
      show (if s.phase = .rx1 ∧ id = .rx1 then _ else if s.phase = .rx2 ∧ id = .rx2 then _ else _) = _
      split
      · rfl
      · split <;> rfl
    refine ⟨_, m, .same _, ?_⟩
    simp only [step]
    rw [e]
  | join r1 r2 =>
    simp only [step, uwanJoin, bind, Except.bind] at h
    by_cases c : s.phase ≠ .idle
    · rw [if_pos c] at h
      cases h
      refine ⟨_, m, .same _, ?_⟩
      simp only [step, uwanJoin, bind, Except.bind]
      rw [if_pos (show (mrk m s).phase ≠ .idle from c)]
    rw [if_neg c] at h
    cases h1 : channelsGetNext s.chan r1 with
    | error u => rw [h1] at h; cases h
    | ok g =>
      rw [h1] at h
      obtain ⟨r', h1'⟩ := mk_pick hi.chan hm h1
      refine ⟨.join r' r2, m, .join .., ?_⟩
      simp only [step, uwanJoin, bind, Except.bind]
      rw [if_neg (show ¬ (mrk m s).phase ≠ .idle from c), show channelsGetNext (mrk m s).chan r' = _ from h1']
      simp only at h ⊢
      by_cases c0 : g = 0
      · rw [if_pos c0] at h ⊢
        cases h; rfl
      rw [if_neg c0] at h ⊢
      have ec : (mrk m s).defaultDr = s.defaultDr := rfl
      rw [ec]
      cases h2 : orOob (drTable s.defaultDr) with
      | error u => rw [h2] at h; cases h
      | ok d =>
        rw [h2] at h
        simp only at h ⊢
        split at h
        · cases h
        · next z hz =>
          split at hz
          · cases hz
          · next evp h3 =>
            split at hz
            · cases hz
            · next fr h4 =>
              cases hz
              cases h
              generalize hg : applyTxPower _ = q
              rw [show q = .ok evp from hg.symm.trans h3]
              simp only
              generalize hg : orOob _ = q
              rw [show q = .ok fr from hg.symm.trans h4]
              rfl
  | send port pld cf rnd =>
    simp only [step, sendFrame, bind, Except.bind] at h
    by_cases c : s.phase ≠ .idle
    · rw [if_pos c] at h
      cases h
      refine ⟨_, m, .same _, ?_⟩
      simp only [step, sendFrame, bind, Except.bind]
      rw [if_pos (show (mrk m s).phase ≠ .idle from c)]
    rw [if_neg c] at h
    cases h1 : channelsGetNext s.chan rnd with
    | error u => rw [h1] at h; cases h
    | ok g =>
      rw [h1] at h
      obtain ⟨r', h1'⟩ := mk_pick hi.chan hm h1
      refine ⟨.send port pld cf r', m, .send .., ?_⟩
      simp only [step, sendFrame, bind, Except.bind]
      rw [if_neg (show ¬ (mrk m s).phase ≠ .idle from c), show channelsGetNext (mrk m s).chan r' = _ from h1']
      simp only at h ⊢
      by_cases c0 : g = 0
      · rw [if_pos c0] at h ⊢
        cases h; rfl
      rw [if_neg c0] at h ⊢
      by_cases c1 : pld.length > getMaxPayloadSize s
      · rw [if_pos c1] at h
        rw [if_pos (show pld.length > getMaxPayloadSize (mrk m s) from c1)]
        cases h; rfl
      rw [if_neg c1] at h
      rw [if_neg (show ¬ pld.length > getMaxPayloadSize (mrk m s) from c1)]
      by_cases c2 : pld.length = 0 ∧ s.mac.queue.length = 0
      · rw [if_pos c2] at h
        rw [if_pos (show pld.length = 0 ∧ (mrk m s).mac.queue.length = 0 from c2)]
        cases h; rfl
      rw [if_neg c2] at h
      rw [if_neg (show ¬ (pld.length = 0 ∧ (mrk m s).mac.queue.length = 0) from c2)]
      have e3 : currentDr (mrk m s) = currentDr s := rfl
      have e2 : (mrk m s).mac = s.mac := rfl
      rw [e3, e2]
      generalize ht : mrk m s = t
      cases h2 : orOob (drTable (currentDr s)) with
      | error u => rw [h2] at h; cases h
      | ok d =>
        rw [h2] at h
        simp only at h ⊢
        have ep : t.pp = s.pp := by rw [← ht]; rfl
        have ef : t.frame = s.frame := by rw [← ht]; rfl
        rw [ep]
        generalize hq : ({ s.pp with sf := d.1, bw := d.2, invertedIq := false } : PktParams) = q at h ⊢
        have e5 : applyTxPower { t with pp := q, mac := s.mac } = applyTxPower { s with pp := q } := by rw [← ht]; rfl
        rw [e5]
        cases h3 : applyTxPower { s with pp := q } with
        | error u => rw [h3] at h; cases h
        | ok evp =>
          rw [h3] at h
          simp only at h ⊢
          have e6 : buildUplink E { t with pp := q, mac := s.mac } port pld cf =
            buildUplink E { s with pp := q } port pld cf := by rw [← ht]; rfl
          rw [e6]
          generalize buildUplink E { s with pp := q } port pld cf = jr at h ⊢
          rw [ef]
          cases h4 : orOob (blit s.frame 0 jr.1) with
          | error u => rw [h4] at h; cases h
          | ok g =>
            rw [h4] at h
            cases h
            have hx : ∀ x : St, adrHandleUplink (mrk m x) = mrk m (adrHandleUplink x) := by
              intro x
              unfold adrHandleUplink
              by_cases k : x.session.dr ≠ 0 ∧ (x.adr.ackCnt + 1).toNat > x.adr.ackLimit.toNat + x.adr.ackDelay.toNat
              · rw [if_pos k]; exact if_pos k
              · rw [if_neg k]; exact if_neg k
            simp only
            rw [← hx, ← ht]
            rfl
  | event x o =>
    simp only [step, bind, Except.bind] at h
    split at h
    · cases h
    · next z hz =>
      cases h
      obtain ⟨m', k1⟩ := mrk_event (E := E) (m := m) hz
      refine ⟨_, m', .same _, ?_⟩
      simp only [step, bind, Except.bind]
      rw [k1]

end Uwan
