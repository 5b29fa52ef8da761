import Verif.Model.Stack
import Verif.Lemmas.Channels

/-! The invariant of the stack state and its preservation, function by function. -/

namespace Uwan

/-- Invariant of all states reachable with valid arguments. -/
structure Inv (s : St) : Prop where
  chan : ChanInv s.chan
  queue : s.mac.queue.length ≤ 15
  frame : s.frame.length = 255
  dr : s.session.dr < 6
  defaultDr : s.defaultDr < 6
  rx2Dr : s.rx2Dr < 6
  rx1Offset : s.rx1Offset.toNat < 6
  txPower : s.txPower.toNat < 8
  nbTrans : 1 ≤ s.nbTrans.toNat ∧ s.nbTrans.toNat ≤ 15
  defaultNbTrans : 1 ≤ s.defaultNbTrans.toNat ∧ s.defaultNbTrans.toNat ≤ 15
  delay : ∃ d, 1 ≤ d ∧ d ≤ 15 ∧ s.defaultRx1Delay = BitVec.ofNat 32 (d * 1000)
  region : s.phase ≠ .notInit → s.region.isSome = true
  rx2Freq : s.region.isSome = true → isValidFrequency s.rx2Freq = true

/-! ### MAC queue -/

theorem macEnqueue_eq (m : Mac) (h : m.queue.length ≤ 15) (cid : Byte) (data : Bytes) :
    macEnqueue m cid data =
      if m.queue.length + 1 + data.length ≤ 15 then (true, { m with queue := m.queue ++ cid :: data })
      else (false, m) := by
  unfold macEnqueue
  have e : (15 - BitVec.ofNat 8 m.queue.length : Byte).toNat = 15 - m.queue.length := by
    rw [BitVec.toNat_sub]; simp; omega
  simp only [e]
  split <;> split <;> first | rfl | omega

theorem macEnqueue_len {m : Mac} (h : m.queue.length ≤ 15) (cid : Byte) (data : Bytes) :
    (macEnqueue m cid data).2.queue.length ≤ 15 := by
  rw [macEnqueue_eq m h]; split
  · simp; omega
  · exact h

theorem Inv.enqueue {s : St} (h : Inv s) (cid : Byte) (data : Bytes) : Inv (s.enqueue cid data).2 :=
  { h with queue := macEnqueue_len h.queue cid data, chan := h.chan, frame := h.frame }

/-! ### Setters -/

theorem isValidDr_lt {n : Nat} (h : isValidDr n = true) (h' : n < 256) : n < 6 := by
  simp only [isValidDr, decide_eq_true_eq] at h; omega

theorem isValidDr_byte {b : Byte} (h : isValidDr b.toNat = true) : b.toNat < 6 :=
  isValidDr_lt h b.isLt

theorem Inv.setRx2 {s : St} (h : Inv s) (f : U32) (dr : Nat) (hd : dr < 256) : Inv (setRx2 s f dr).2 := by
  unfold Uwan.setRx2
  split
  · exact h
  next h1 =>
  split
  · exact h
  next h2 =>
  exact { h with rx2Dr := isValidDr_lt (by simpa using h1) hd, rx2Freq := fun _ => by simpa using h2 }

theorem Inv.setRx1DrOffset {s : St} (h : Inv s) (o : Byte) : Inv (setRx1DrOffset s o).2 := by
  unfold Uwan.setRx1DrOffset
  split
  · next h1 => exact { h with rx1Offset := isValidDr_byte h1 }
  · exact h

theorem Inv.setRx1Delay {s : St} (h : Inv s) (d : Byte) : Inv (setRx1Delay s d).2 := by
  unfold Uwan.setRx1Delay
  split
  · next h1 => exact { h with delay := ⟨d.toNat, h1.1, h1.2, rfl⟩ }
  · exact h

theorem Inv.setNbTransInt {s : St} (h : Inv s) (n : Byte) : Inv (setNbTransInt s n).2 := by
  unfold Uwan.setNbTransInt
  split
  · next h1 => exact { h with nbTrans := h1 }
  · exact h

theorem Inv.resetNbTrans {s : St} (h : Inv s) : Inv (resetNbTrans s) :=
  { h with nbTrans := h.defaultNbTrans }

theorem Inv.setTxPowerInt {s : St} (h : Inv s) (p : Byte) : Inv (setTxPowerInt s p).2 := by
  unfold Uwan.setTxPowerInt
  split
  · next h1 => exact { h with txPower := by simpa [isValidTxPower] using h1 }
  · exact h

theorem Inv.withChan {s : St} (h : Inv s) {c : Chan} (hc : ChanInv c) : Inv { s with chan := c } :=
  { h with chan := hc }

theorem ChanInv.foldEnable (g : Nat → Bool) (l : List Nat) {c : Chan} (h : ChanInv c) :
    ChanInv (l.foldl (fun c i => (Uwan.enableChannel c i (g i)).2) c) := by
  induction l generalizing c with
  | nil => exact h
  | cons a l ih => exact ih (h.enableChannel a (g a))

theorem ChanInv.applyChMask {c : Chan} (h : ChanInv c) (m : U16) : ChanInv (applyChMask c m) :=
  h.foldEnable _ _

theorem ChanInv.handleAdrChMask {c : Chan} (h : ChanInv c) (m : U16) (k : Nat) (d : Bool) :
    ChanInv (handleAdrChMask c m k d).2 := by
  unfold Uwan.handleAdrChMask
  split
  · cases d
    · exact h.applyChMask m
    · exact h
  · split
    · cases d
      · rw [if_neg (by decide)]; dsimp only; exact h.enableAll
      · rw [if_pos rfl]; exact h
    · exact h

theorem ChanInv.newChannelRes {c : Chan} (h : ChanInv c) (i : Byte) (f : U32) (d : Byte) :
    ChanInv (newChannelRes c i f d).2 := by
  unfold Uwan.newChannelRes
  simp only
  generalize (if d = 80#8 then _ else _ : Byte) = r
  split
  · exact h.setChannel _ _
  · exact h

/-- The three bits of the LinkADRAns status byte. -/
theorem linkAdrStatus_eq7 (s : St) (a : Byte) (m : U16) (r : Byte) :
    linkAdrStatus s a m r = 7 ↔
      isValidDr ((a >>> 4) &&& 0xf).toNat = true ∧
      (Uwan.handleAdrChMask s.chan m (linkAdrCntl r) true).1 = true ∧
      isValidTxPower (a &&& 0xf) = true := by
  unfold linkAdrStatus
  generalize isValidDr _ = x
  generalize (Uwan.handleAdrChMask _ _ _ _).1 = y
  generalize isValidTxPower _ = z
  revert x y z; decide

theorem Inv.linkAdrNbTrans {s : St} (h : Inv s) (nb : Byte) : Inv (linkAdrNbTrans s nb) := by
  unfold Uwan.linkAdrNbTrans
  simp only
  split
  · exact h.setNbTransInt _
  · exact (h.setNbTransInt _).resetNbTrans

theorem Inv.adrHandleLinkReq {s : St} (h : Inv s) (a : Byte) (m : U16) (r : Byte) :
    Inv (adrHandleLinkReq s a m r).2 := by
  unfold Uwan.adrHandleLinkReq
  apply Inv.enqueue
  split
  · next h7 =>
    have hb := isValidDr_byte ((linkAdrStatus_eq7 s a m r).mp h7).1
    have h2 := (h.linkAdrNbTrans (r &&& 0xf)).setTxPowerInt (a &&& 0xf)
    have h3 := h2.chan.handleAdrChMask m (linkAdrCntl r) false
    unfold linkAdrApply
    exact { h2 with dr := hb, chan := h3 }
  · exact h

/-! ### Frame condition of MAC command handling -/

/-- What executing MAC commands never changes. -/
structure MacFrame (s s' : St) : Prop where
  phase : s'.phase = s.phase
  region : s'.region = s.region
  isJoined : s'.session.isJoined = s.session.isJoined
  ackRequired : s'.session.ackRequired = s.session.ackRequired
  devAddr : s'.session.devAddr = s.session.devAddr
  fCntUp : s'.session.fCntUp = s.session.fCntUp
  fCntDown : s'.session.fCntDown = s.session.fCntDown
  nwkSKey : s'.session.nwkSKey = s.session.nwkSKey
  appSKey : s'.session.appSKey = s.session.appSKey
  pp : s'.pp = s.pp
  frame : s'.frame = s.frame
  rx1Delay : s'.rx1Delay = s.rx1Delay
  rx2Delay : s'.rx2Delay = s.rx2Delay
  joinState : s'.joinState = s.joinState
  devNonce : s'.devNonce = s.devNonce
  devEui : s'.devEui = s.devEui
  appEui : s'.appEui = s.appEui
  appKey : s'.appKey = s.appKey
  defaultDr : s'.defaultDr = s.defaultDr
  defaultNbTrans : s'.defaultNbTrans = s.defaultNbTrans
  defaultTxPower : s'.defaultTxPower = s.defaultTxPower
  maxEirp : s'.maxEirp = s.maxEirp
  snr : s'.snr = s.snr
  saveDevTime : s'.mac.saveDevTime = s.mac.saveDevTime
  devTime : s'.mac.devTime = s.mac.devTime
  cbs : s'.mac.cbs = s.mac.cbs
  adr : s'.adr = s.adr

theorem MacFrame.refl (s : St) : MacFrame s s := by constructor <;> rfl

theorem MacFrame.trans {a b c : St} (h : MacFrame a b) (h' : MacFrame b c) : MacFrame a c := by
  cases h; cases h'
  constructor <;> simp_all only

theorem macFrame_enqueue (s : St) (cid : Byte) (d : Bytes) : MacFrame s (s.enqueue cid d).2 := by
  unfold St.enqueue macEnqueue
  constructor <;> simp only <;> (try rfl) <;> (split <;> rfl)

theorem macFrame_setRx2 (s : St) (f : U32) (d : Nat) : MacFrame s (setRx2 s f d).2 := by
  unfold setRx2; split
  · exact .refl s
  · split
    · exact .refl s
    · constructor <;> rfl

theorem macFrame_setRx1DrOffset (s : St) (o : Byte) : MacFrame s (setRx1DrOffset s o).2 := by
  unfold setRx1DrOffset; split
  · constructor <;> rfl
  · exact .refl s

theorem macFrame_setRx1Delay (s : St) (o : Byte) : MacFrame s (setRx1Delay s o).2 := by
  unfold setRx1Delay; split
  · constructor <;> rfl
  · exact .refl s

theorem macFrame_setNbTransInt (s : St) (o : Byte) : MacFrame s (setNbTransInt s o).2 := by
  unfold setNbTransInt; split
  · constructor <;> rfl
  · exact .refl s

theorem macFrame_setTxPowerInt (s : St) (o : Byte) : MacFrame s (setTxPowerInt s o).2 := by
  unfold setTxPowerInt; split
  · constructor <;> rfl
  · exact .refl s

theorem macFrame_linkAdrNbTrans (s : St) (nb : Byte) : MacFrame s (linkAdrNbTrans s nb) := by
  unfold linkAdrNbTrans
  simp only
  split
  · exact macFrame_setNbTransInt _ _
  · exact (macFrame_setNbTransInt _ _).trans (by constructor <;> rfl)

theorem macFrame_adr (s : St) (a : Byte) (m : U16) (r : Byte) : MacFrame s (adrHandleLinkReq s a m r).2 := by
  unfold adrHandleLinkReq
  refine .trans ?_ (macFrame_enqueue _ _ _)
  split
  · have h2 := (macFrame_linkAdrNbTrans s (r &&& 0xf)).trans (macFrame_setTxPowerInt _ (a &&& 0xf))
    exact h2.trans (by constructor <;> rfl)
  · exact .refl s

/-- Result shape of a handler: it never fails, keeps the invariant and the frame. -/
theorem runHandler_ok {s : St} (h : Inv s) (hr : s.region.isSome = true) (c : MacCommand) (hc : c ∈ macCommands)
    (pld : Bytes) (hl : c.pldSize ≤ pld.length) (bat : Byte) :
    ∃ b s' ev, runHandler c.handler s pld bat = .ok (b, s', ev) ∧ Inv s' ∧ MacFrame s s' := by
  obtain ⟨r, hr⟩ := Option.isSome_iff_exists.mp hr
  have hcase : c.handler = .linkCheck ∧ c.pldSize = 2 ∨ c.handler = .linkAdr ∧ c.pldSize = 4 ∨
      c.handler = .dutyCycle ∨ c.handler = .rxParamSetup ∧ c.pldSize = 4 ∨ c.handler = .devStatus ∨
      c.handler = .newChannel ∧ c.pldSize = 5 ∨ c.handler = .rxTimingSetup ∧ c.pldSize = 1 ∨
      c.handler = .txParamSetup ∨ c.handler = .diChannel ∨ c.handler = .deviceTime ∧ c.pldSize = 5 := by
    have : ∀ c ∈ macCommands, c.handler = .linkCheck ∧ c.pldSize = 2 ∨ c.handler = .linkAdr ∧ c.pldSize = 4 ∨
      c.handler = .dutyCycle ∨ c.handler = .rxParamSetup ∧ c.pldSize = 4 ∨ c.handler = .devStatus ∨
      c.handler = .newChannel ∧ c.pldSize = 5 ∨ c.handler = .rxTimingSetup ∧ c.pldSize = 1 ∨
      c.handler = .txParamSetup ∨ c.handler = .diChannel ∨ c.handler = .deviceTime ∧ c.pldSize = 5 := by
      decide
    exact this c hc
  rcases hcase with ⟨e, l⟩ | ⟨e, l⟩ | e | ⟨e, l⟩ | e | ⟨e, l⟩ | ⟨e, l⟩ | e | e | ⟨e, l⟩ <;>
    rw [e] <;> simp only [runHandler]
  · -- linkCheck
    unfold hLinkCheck
    match pld, hl with
    | a :: b :: p, _ =>
      split
      · split
        · exact ⟨_, _, _, rfl, h, .refl s⟩
        · exact ⟨_, _, _, rfl, h, .refl s⟩
      · exact ⟨_, _, _, rfl, h, .refl s⟩
    | [], hl => simp at hl; omega
    | [_], hl => simp at hl; omega
  · unfold hLinkAdr
    rw [hr]
    match pld, hl with
    | a :: b :: c :: d :: p, _ => exact ⟨_, _, _, rfl, h.adrHandleLinkReq _ _ _, macFrame_adr _ _ _ _⟩
    | [], hl => simp at hl; omega
    | [_], hl => simp at hl; omega
    | [_, _], hl => simp at hl; omega
    | [_, _, _], hl => simp at hl; omega
  · exact ⟨_, _, _, rfl, h.enqueue _ _, macFrame_enqueue _ _ _⟩
  · unfold hRxParamSetup
    match pld, hl with
    | a :: b :: c :: d :: p, _ =>
      refine ⟨_, _, _, rfl, ?_, ?_⟩
      · apply Inv.enqueue
        split
        · exact (h.setRx1DrOffset _).setRx2 _ _ (BitVec.isLt _)
        · exact h
      · refine .trans ?_ (macFrame_enqueue _ _ _)
        split
        · exact (macFrame_setRx1DrOffset _ _).trans (macFrame_setRx2 _ _ _)
        · exact .refl s
    | [], hl => simp at hl; omega
    | [_], hl => simp at hl; omega
    | [_, _], hl => simp at hl; omega
    | [_, _, _], hl => simp at hl; omega
  · unfold hDevStatus
    split
    · split
      · exact ⟨_, _, _, rfl, h.enqueue _ _, macFrame_enqueue _ _ _⟩
      · exact ⟨_, _, _, rfl, h.enqueue _ _, macFrame_enqueue _ _ _⟩
    · exact ⟨_, _, _, rfl, h.enqueue _ _, macFrame_enqueue _ _ _⟩
  · unfold hNewChannel
    match pld, hl with
    | a :: b :: c :: d :: e :: p, _ =>
      refine ⟨_, _, _, rfl, ?_, ?_⟩
      · exact (h.withChan (h.chan.newChannelRes _ _ _)).enqueue _ _
      · exact .trans (by constructor <;> rfl) (macFrame_enqueue _ _ _)
    | [], hl => simp at hl; omega
    | [_], hl => simp at hl; omega
    | [_, _], hl => simp at hl; omega
    | [_, _, _], hl => simp at hl; omega
    | [_, _, _, _], hl => simp at hl; omega
  · unfold hRxTimingSetup
    match pld, hl with
    | a :: p, _ =>
      exact ⟨_, _, _, rfl, (h.setRx1Delay _).enqueue _ _, (macFrame_setRx1Delay _ _).trans (macFrame_enqueue _ _ _)⟩
    | [], hl => simp at hl; omega
  · exact ⟨_, _, _, rfl, h, .refl s⟩
  · exact ⟨_, _, _, rfl, h, .refl s⟩
  · unfold hDeviceTime
    match pld, hl with
    | a :: b :: c :: d :: e :: p, _ =>
      split
      · split
        · exact ⟨_, _, _, rfl, h, .refl s⟩
        · exact ⟨_, _, _, rfl, h, .refl s⟩
      · exact ⟨_, _, _, rfl, h, .refl s⟩
    | [], hl => simp at hl; omega
    | [_], hl => simp at hl; omega
    | [_, _], hl => simp at hl; omega
    | [_, _, _], hl => simp at hl; omega
    | [_, _, _, _], hl => simp at hl; omega

theorem macLoop_ok (bat : Nat → Byte) : ∀ (n : Nat) (s : St) (l : Bytes), l.length ≤ n → Inv s →
    s.region.isSome = true → ∃ s' ev, macLoop bat n s l = .ok (s', ev) ∧ Inv s' ∧ MacFrame s s'
  | n, s, [], _, h, _ => ⟨s, [], by cases n <;> rfl, h, .refl s⟩
  | 0, _, _ :: _, hl, _, _ => by simp at hl
  | n + 1, s, cid :: rest, hl, h, hr => by
    rw [macLoop]
    split
    · exact ⟨s, [], rfl, h, .refl s⟩
    · next c hf =>
      split
      · next hsz =>
        obtain ⟨b, s', ev, e, hi, hfr⟩ := runHandler_ok h hr c (List.mem_of_find?_eq_some hf) rest hsz
          (bat rest.length)
        rw [e]
        simp only [bind, Except.bind]
        cases b with
        | false => exact ⟨s', ev, rfl, hi, hfr⟩
        | true =>
          obtain ⟨s2, ev2, e2, hi2, hfr2⟩ := macLoop_ok bat n s' (rest.drop c.pldSize)
            (by simp at hl ⊢; omega) hi (by rw [hfr.region]; exact hr)
          simp only [↓reduceIte, e2]
          exact ⟨s2, ev ++ ev2, rfl, hi2, hfr.trans hfr2⟩
      · exact ⟨s, [], rfl, h, .refl s⟩

theorem macHandleCommands_ok (bat : Nat → Byte) {s : St} (h : Inv s) (hr : s.region.isSome = true) (l : Bytes) :
    ∃ s' ev, macHandleCommands bat s l = .ok (s', ev) ∧ Inv s' ∧ MacFrame s s' :=
  macLoop_ok bat l.length s l (Nat.le_refl _) h hr

end Uwan
