import Verif.Lemmas.View
import Verif.Spec.Config

/-! The observer's configuration agrees with the stack's state: channels and MAC commands. -/

namespace Uwan
open Spec

variable {E : Env}

/-- Frequencies of the channel table. -/
def chFreq (c : Chan) : Nat → Nat := fun i => (c.freqAt i).toNat
/-- Enabled channels. -/
def chOn (c : Chan) : Nat → Bool := fun i => decide (i < 16) && c.mask.isSet i

/-- The part of the state the observer describes. -/
def cfgOf (s : St) : Cfg where
  region := s.region
  freq := chFreq s.chan
  on := chOn s.chan
  rx2Freq := s.rx2Freq.toNat
  rx2Dr := s.rx2Dr
  off := s.rx1Offset.toNat
  delay := s.defaultRx1Delay.toNat / 1000
  dr := s.session.dr
  defDr := s.defaultDr
  nb := s.nbTrans.toNat
  defNb := s.defaultNbTrans.toNat
  pow := s.txPower.toNat
  defPow := s.defaultTxPower.toNat
  eirp := s.maxEirp.toInt
  adr := s.adr.enabled
  limit := s.adr.ackLimit.toNat
  adrDelay := s.adr.ackDelay.toNat
  cnt := s.adr.ackCnt.toNat
  queue := s.mac.queue
  ack := s.session.ackRequired
  down := s.session.fCntDown.toNat
  snr := s.snr.toInt
  cbs := s.mac.cbs
  stamp := s.mac.saveDevTime
  devTime := s.mac.devTime.toNat
  joining := s.joinState
  win1 := s.rx1Delay.toNat
  win2 := s.rx2Delay.toNat

/-! ### Channels -/

theorem isValidFrequency_eq (f : U32) : isValidFrequency f = inBand f.toNat := rfl

theorem toNat_ne_zero {f : U32} : f.toNat ≠ 0 ↔ f ≠ 0 := by
  constructor
  · rintro h rfl; exact h rfl
  · intro h e; exact h (BitVec.eq_of_toNat_eq e)

theorem chFreq_enable (c : Chan) (i : Nat) (en : Bool) : chFreq (enableChannel c i en).2 = chFreq c := by
  unfold enableChannel
  repeat' split
  all_goals rfl

theorem chOn_turnOn (c : Chan) (i : Nat) (hi : i < 16) : chOn (c.turnOn i) = upd (chOn c) i true := by
  funext j
  unfold chOn upd
  by_cases hj : j < 16
  · show (decide (j < 16) && (c.mask.set i).isSet j) = _
    rw [Mask.isSet_set _ _ _ hi hj]
    by_cases h : j = i <;> simp [h, hi]
  · have : j ≠ i := by omega
    simp [hj, this]

theorem chOn_enable (c : Chan) (i : Nat) (en : Bool) :
    chOn (enableChannel c i en).2 =
      if i < 16 ∧ (en = true → chFreq c i ≠ 0) then upd (chOn c) i en else chOn c := by
  unfold enableChannel
  by_cases hi : 16 ≤ i
  · rw [if_pos hi, if_neg (by omega)]
  rw [if_neg hi]
  cases en
  · rw [if_neg (by decide), if_pos (by simp; omega)]
    funext j
    unfold chOn upd
    by_cases hj : j < 16
    · show (decide (j < 16) && (c.mask.clear i).isSet j) = _
      rw [Mask.isSet_clear _ _ _ (by omega) hj]
      by_cases h : j = i <;> simp [h]
    · have : j ≠ i := by omega
      simp [hj, this]
  · rw [if_pos rfl]
    by_cases hf : c.freqAt i = 0
    · rw [if_pos hf, if_neg (by simp [chFreq, hf])]
    · rw [if_neg hf, if_pos ⟨by omega, fun _ => toNat_ne_zero.mpr hf⟩]
      exact chOn_turnOn c i (by omega)

theorem chFreq_upd (c : Chan) (i : Nat) (f : U32) (hi : i < 16) :
    chFreq { c with freq := c.freq.setIfInBounds i f } = upd (chFreq c) i f.toNat := by
  funext j
  unfold chFreq upd
  rw [Chan.freqAt_set _ _ _ _ hi]
  split <;> rfl

theorem chFreq_setChannel (c : Chan) (i : Nat) (f : U32) :
    chFreq (setChannel c i f).2 = if i < 16 ∧ inBand f.toNat = true then upd (chFreq c) i f.toNat else chFreq c := by
  unfold setChannel
  by_cases hi : 16 ≤ i
  · rw [if_pos hi, if_neg (by omega)]
  rw [if_neg hi, isValidFrequency_eq]
  cases hb : inBand f.toNat
  · simp
  · simp only [Bool.not_true, Bool.false_eq_true, ↓reduceIte, and_true]
    rw [chFreq_enable, chFreq_upd _ _ _ (by omega), if_pos (by omega)]

theorem chOn_setChannel (c : Chan) (i : Nat) (f : U32) :
    chOn (setChannel c i f).2 = if i < 16 ∧ inBand f.toNat = true then upd (chOn c) i true else chOn c := by
  unfold setChannel
  by_cases hi : 16 ≤ i
  · rw [if_pos hi, if_neg (by omega)]
  rw [if_neg hi, isValidFrequency_eq]
  cases hb : inBand f.toNat
  · simp
  · simp only [Bool.not_true, Bool.false_eq_true, ↓reduceIte, and_true]
    rw [chOn_enable, chFreq_upd _ _ _ (by omega)]
    have hne : f.toNat ≠ 0 := by
      intro h0; rw [h0] at hb; revert hb; decide
    rw [if_pos ⟨by omega, fun _ => by simp [upd, hne]⟩, if_pos (by omega)]
    rfl

/-- The whole configuration after a channel change. -/
theorem cfgOf_chan (s : St) (c : Chan) : cfgOf { s with chan := c } = { cfgOf s with freq := chFreq c, on := chOn c } := rfl

theorem cfgOf_enable (s : St) (i : Nat) (en : Bool) :
    cfgOf { s with chan := (enableChannel s.chan i en).2 } = (cfgOf s).enable i en := by
  rw [cfgOf_chan, chFreq_enable, chOn_enable]
  unfold Cfg.enable
  show _ = if i < 16 ∧ (en = true → chFreq s.chan i ≠ 0) then _ else _
  split <;> rfl

theorem cfgOf_setChannel (s : St) (i : Nat) (f : U32) :
    cfgOf { s with chan := (setChannel s.chan i f).2 } = (cfgOf s).setChannel i f.toNat := by
  rw [cfgOf_chan, chFreq_setChannel, chOn_setChannel]
  unfold Cfg.setChannel
  split <;> rfl

theorem getLsbD_bit {w : Nat} (x : BitVec w) (i : Nat) : x.getLsbD i = bit x.toNat i := by
  unfold BitVec.getLsbD bit
  rw [Nat.testBit_eq_decide_div_mod_eq]

theorem chMaskOk_eq (c : Chan) (m : U16) :
    chMaskOk c m = (List.range 16).all fun i => !bit m.toNat i || chFreq c i != 0 := by
  unfold chMaskOk
  rw [Bool.eq_iff_iff, List.all_eq_true, List.all_eq_true]
  refine forall_congr' fun i => forall_congr' fun hi => ?_
  have hi : i < 16 := by simpa using hi
  have : channelIsExist c i = (chFreq c i != 0) := by
    unfold channelIsExist
    rw [if_neg (by omega)]
    unfold chFreq
    by_cases h : c.freqAt i = 0
    · simp [h]
    · have h' := toNat_ne_zero.mpr h
      rw [bne_iff_ne.mpr h, bne_iff_ne.mpr h']
  rw [this, getLsbD_bit]
  cases bit m.toNat i <;> cases (chFreq c i != 0) <;> simp

theorem chFreq_fold (g : Nat → Bool) (l : List Nat) (c : Chan) :
    chFreq (l.foldl (fun c i => (enableChannel c i (g i)).2) c) = chFreq c := by
  induction l generalizing c with
  | nil => rfl
  | cons a l ih => rw [List.foldl_cons, ih, chFreq_enable]

theorem chOn_fold (g : Nat → Bool) (c : Chan) (n : Nat) (hn : n ≤ 16) (hg : ∀ i, i < n → g i = true → chFreq c i ≠ 0) :
    chOn ((List.range n).foldl (fun c i => (enableChannel c i (g i)).2) c) =
      fun i => if i < n then g i else chOn c i := by
  induction n with
  | zero => funext i; simp
  | succ n ih =>
    rw [List.range_succ, List.foldl_append, List.foldl_cons, List.foldl_nil, chOn_enable, chFreq_fold,
      ih (by omega) (fun i hi => hg i (by omega)), if_pos ⟨by omega, fun h => hg n (by omega) h⟩]
    funext i
    unfold upd
    by_cases h1 : i = n
    · subst h1; simp
    · by_cases h2 : i < n
      · simp [h1, h2, show i < n + 1 by omega]
      · simp [h1, h2, show ¬ i < n + 1 by omega]

theorem chOn_applyChMask (c : Chan) (m : U16) (h : chMaskOk c m = true) :
    chOn (applyChMask c m) = fun i => if i < 16 then bit m.toNat i else false := by
  unfold applyChMask
  rw [chOn_fold (fun i => m.getLsbD i) c 16 (Nat.le_refl _)]
  · funext i
    rw [getLsbD_bit]
    by_cases hi : i < 16 <;> simp [hi, chOn]
  · intro i hi hg
    rw [chMaskOk_eq, List.all_eq_true] at h
    have := h i (by simpa using hi)
    rw [← getLsbD_bit, hg] at this
    simpa using this

theorem chFreq_applyChMask (c : Chan) (m : U16) : chFreq (applyChMask c m) = chFreq c := chFreq_fold _ _ _

/-! ### The answer queue -/

theorem cfgOf_enqueue (s : St) (h : s.mac.queue.length ≤ 15) (cid : Byte) (d : Bytes) :
    (s.enqueue cid d).1 = ((cfgOf s).answer (cid :: d)).1 ∧ cfgOf (s.enqueue cid d).2 = ((cfgOf s).answer (cid :: d)).2 := by
  unfold St.enqueue Cfg.answer
  rw [macEnqueue_eq _ h]
  have e : (cfgOf s).queue = s.mac.queue := rfl
  have l : (cid :: d).length = 1 + d.length := by simp; omega
  rw [e, l, ← Nat.add_assoc]
  by_cases hc : s.mac.queue.length + 1 + d.length ≤ 15
  · simp only [hc, ↓reduceIte]; exact ⟨trivial, rfl⟩
  · simp only [hc, ↓reduceIte]; exact ⟨trivial, trivial⟩

/-! ### Bytes -/

theorem byte_hi (b : Byte) : ((b >>> 4) &&& 0xf).toNat = b.toNat / 16 := by
  have : ∀ b : Fin 256, (((⟨b⟩ : Byte) >>> 4) &&& 0xf).toNat = (⟨b⟩ : Byte).toNat / 16 := by decide +kernel
  exact this b.toFin

theorem byte_lo (b : Byte) : (b &&& 0xf).toNat = b.toNat % 16 := by
  have : ∀ b : Fin 256, ((⟨b⟩ : Byte) &&& 0xf).toNat = (⟨b⟩ : Byte).toNat % 16 := by decide +kernel
  exact this b.toFin

theorem byte_hi3 (b : Byte) : ((b >>> 4) &&& 7).toNat = b.toNat / 16 % 8 := by
  have : ∀ b : Fin 256, (((⟨b⟩ : Byte) >>> 4) &&& 7).toNat = (⟨b⟩ : Byte).toNat / 16 % 8 := by decide +kernel
  exact this b.toFin

theorem linkAdrCntl_eq (b : Byte) : linkAdrCntl b = if bit (b.toNat / 16 % 8) 2 then 4 else 0 := by
  have : ∀ b : Fin 256, linkAdrCntl (⟨b⟩ : Byte) = if bit ((⟨b⟩ : Byte).toNat / 16 % 8) 2 then 4 else 0 := by
    decide +kernel
  exact this b.toFin

theorem isValidDr_eq {n : Nat} (h : n < 256) : isValidDr n = decide (n < 6) := by
  unfold isValidDr; rw [Nat.mod_eq_of_lt h]

theorem or24_100 (a b c : Byte) : (or24 a b c * 100).toNat = 100 * leNat [a, b, c] := by
  have h := or24_toNat a b c
  have ha := a.isLt; have hb := b.isLt; have hc := c.isLt
  have hl : leNat [a, b, c] < 16777216 := by simp only [leNat]; omega
  rw [BitVec.toNat_mul, h]
  show leNat [a, b, c] * 100 % 2 ^ 32 = _
  omega

theorem margin_eq (x : BitVec 8) : (x &&& 0x3f) = BitVec.ofInt 8 (x.toInt % 64) := by
  have : ∀ b : Fin 256, ((⟨b⟩ : Byte) &&& 0x3f) = BitVec.ofInt 8 ((⟨b⟩ : Byte).toInt % 64) := by decide +kernel
  exact this x.toFin

/-! ### The commands -/

theorem handleAdrChMask_dry (c : Chan) (m : U16) (x : Byte) :
    (handleAdrChMask c m (linkAdrCntl x) true).1 =
      (!bit (x.toNat / 16 % 8) 2 && (List.range 16).all fun i => !bit m.toNat i || chFreq c i != 0) := by
  rw [linkAdrCntl_eq, ← chMaskOk_eq]
  unfold handleAdrChMask
  cases bit (x.toNat / 16 % 8) 2 <;> simp

theorem linkAdrStatus_bits (s : St) (a : Byte) (m : U16) (x : Byte) :
    linkAdrStatus s a m x =
      bits ((cfgOf s).maskOk m.toNat (x.toNat / 16 % 8)) (decide (a.toNat / 16 < 6)) (decide (a.toNat % 16 < 8)) := by
  unfold linkAdrStatus
  have h1 : isValidDr ((a >>> 4) &&& 0xf).toNat = decide (a.toNat / 16 < 6) := by
    rw [byte_hi, isValidDr_eq (by have := a.isLt; omega)]
  have h2 : isValidTxPower (a &&& 0xf) = decide (a.toNat % 16 < 8) := by
    unfold isValidTxPower; rw [byte_lo]
  have h3 : (handleAdrChMask s.chan m (linkAdrCntl x) true).1 = (cfgOf s).maskOk m.toNat (x.toNat / 16 % 8) :=
    handleAdrChMask_dry _ _ _
  rw [h1, h2, h3]
  generalize (cfgOf s).maskOk _ _ = p
  generalize decide (a.toNat / 16 < 6) = q
  generalize decide (a.toNat % 16 < 8) = r
  revert p q r; decide

theorem bits_seven (p q r : Bool) : bits p q r = 7 ↔ (p && q && r) = true := by
  revert p q r; decide

theorem cfgOf_linkAdrNbTrans (s : St) (n : Byte) (h : n.toNat < 16) :
    cfgOf (linkAdrNbTrans s n) = { cfgOf s with nb := if n.toNat = 0 then s.defaultNbTrans.toNat else n.toNat } := by
  unfold linkAdrNbTrans setNbTransInt
  simp only
  by_cases h0 : n.toNat = 0
  · have : ¬(1 ≤ n.toNat ∧ n.toNat ≤ 15) := by omega
    rw [if_neg this, if_pos h0]
    rfl
  · have : 1 ≤ n.toNat ∧ n.toNat ≤ 15 := by omega
    rw [if_pos this, if_neg h0]
    rfl

theorem linkAdrNbTrans_chan (s : St) (n : Byte) : (linkAdrNbTrans s n).chan = s.chan := by
  unfold linkAdrNbTrans setNbTransInt
  simp only
  by_cases h : 1 ≤ n.toNat ∧ n.toNat ≤ 15
  · simp only [h, and_self, ↓reduceIte]
  · simp only [h, ↓reduceIte, Bool.false_eq_true]; rfl

theorem cfgOf_linkAdrApply (s : St) (a : Byte) (m : U16) (x : Byte)
    (h : linkAdrStatus s a m x = 7) :
    cfgOf (linkAdrApply s a m x) =
      { cfgOf s with
        dr := a.toNat / 16
        pow := a.toNat % 16
        nb := if x.toNat % 16 = 0 then s.defaultNbTrans.toNat else x.toNat % 16
        on := fun i => if i < 16 then bit m.toNat i else false } := by
  rw [linkAdrStatus_eq7] at h
  obtain ⟨h1, h2, h3⟩ := h
  have hc : linkAdrCntl x = 0 := by
    rw [handleAdrChMask_dry] at h2
    rw [linkAdrCntl_eq]
    cases hb : bit (x.toNat / 16 % 8) 2
    · rfl
    · rw [hb] at h2; simp at h2
  have hm : chMaskOk s.chan m = true := by
    rw [hc] at h2; simpa [handleAdrChMask] using h2
  unfold linkAdrApply
  simp only
  have e1 : (setTxPowerInt (linkAdrNbTrans s (x &&& 0xf)) (a &&& 0xf)).2 =
      { linkAdrNbTrans s (x &&& 0xf) with txPower := a &&& 0xf } := by
    unfold setTxPowerInt; rw [if_pos h3]
  rw [e1, hc]
  simp only [linkAdrNbTrans_chan]
  have e2 : (handleAdrChMask s.chan m 0 false).2 = applyChMask s.chan m := by simp [handleAdrChMask]
  rw [e2]
  have e3 := cfgOf_linkAdrNbTrans s (x &&& 0xf) (by rw [byte_lo]; omega)
  show { cfgOf (linkAdrNbTrans s (x &&& 0xf)) with
    dr := ((a >>> 4) &&& 0xf).toNat, pow := (a &&& 0xf).toNat
    freq := chFreq (applyChMask s.chan m), on := chOn (applyChMask s.chan m) } = _
  rw [e3, chOn_applyChMask _ _ hm, chFreq_applyChMask, byte_hi, byte_lo, byte_lo]
  rfl

theorem cfgOf_linkAdr (s : St) (h : s.mac.queue.length ≤ 15) (a b c d : Byte) :
    let r := adrHandleLinkReq s a (or16 b c) d
    let t := (cfgOf s).linkAdr (a.toNat / 16) (a.toNat % 16) (leNat [b, c]) (d.toNat / 16 % 8) (d.toNat % 16)
    r.1 = (t.2.answer [3, t.1]).1 ∧ cfgOf r.2 = (t.2.answer [3, t.1]).2 := by
  simp only
  unfold adrHandleLinkReq
  simp only
  have hst := linkAdrStatus_bits s a (or16 b c) d
  rw [or16_toNat] at hst
  have key : cfgOf (if linkAdrStatus s a (or16 b c) d = 7 then linkAdrApply s a (or16 b c) d else s) =
      ((cfgOf s).linkAdr (a.toNat / 16) (a.toNat % 16) (leNat [b, c]) (d.toNat / 16 % 8) (d.toNat % 16)).2 := by
    unfold Cfg.linkAdr
    simp only
    by_cases h7 : linkAdrStatus s a (or16 b c) d = 7
    · rw [if_pos h7]
      have := h7
      rw [hst, bits_seven] at this
      rw [if_pos this, cfgOf_linkAdrApply _ _ _ _ h7, or16_toNat]
      rfl
    · rw [if_neg h7]
      have := h7
      rw [hst, bits_seven] at this
      rw [if_neg this]
  have hst' : linkAdrStatus s a (or16 b c) d =
      ((cfgOf s).linkAdr (a.toNat / 16) (a.toNat % 16) (leNat [b, c]) (d.toNat / 16 % 8) (d.toNat % 16)).1 := hst
  have hq : (if linkAdrStatus s a (or16 b c) d = 7 then linkAdrApply s a (or16 b c) d else s).mac.queue.length ≤ 15 := by
    have : (if linkAdrStatus s a (or16 b c) d = 7 then linkAdrApply s a (or16 b c) d else s).mac.queue =
        (cfgOf (if linkAdrStatus s a (or16 b c) d = 7 then linkAdrApply s a (or16 b c) d else s)).queue := rfl
    rw [this, key]
    unfold Cfg.linkAdr
    simp only
    split <;> exact h
  have := cfgOf_enqueue _ hq 0x03 [linkAdrStatus s a (or16 b c) d]
  rw [key, hst'] at this
  rw [hst'] 
  exact this

theorem cfgOf_rxParam (s : St) (h : s.mac.queue.length ≤ 15) (d x y z : Byte) :
    ∃ ok s', (∀ r, hRxParamSetup s (d :: x :: y :: z :: r) = .ok (ok, s', [])) ∧
      let t := (cfgOf s).rxParam (d.toNat / 16 % 8) (d.toNat % 16) (100 * leNat [x, y, z])
      ok = (t.2.answer [5, t.1]).1 ∧ cfgOf s' = (t.2.answer [5, t.1]).2 := by
  refine ⟨_, _, fun r => rfl, ?_⟩
  simp only
  have h1 : isValidDr ((d >>> 4) &&& 7).toNat = decide (d.toNat / 16 % 8 < 6) := by
    rw [byte_hi3, isValidDr_eq (by omega)]
  have h2 : isValidDr (d &&& 0xf).toNat = decide (d.toNat % 16 < 6) := by
    rw [byte_lo, isValidDr_eq (by omega)]
  have hst : rxParamStatus ((d >>> 4) &&& 7) (d &&& 0xf) (or24 x y z * 100) =
      bits (inBand (100 * leNat [x, y, z])) (decide (d.toNat % 16 < 6)) (decide (d.toNat / 16 % 8 < 6)) := by
    unfold rxParamStatus
    rw [h1, h2, isValidFrequency_eq, or24_100]
    generalize inBand _ = p
    generalize decide (d.toNat % 16 < 6) = q
    generalize decide (d.toNat / 16 % 8 < 6) = r
    revert p q r; decide
  have key : cfgOf (if rxParamStatus ((d >>> 4) &&& 7) (d &&& 0xf) (or24 x y z * 100) = 7 then
      rxParamApply s ((d >>> 4) &&& 7) (d &&& 0xf) (or24 x y z * 100) else s) =
      ((cfgOf s).rxParam (d.toNat / 16 % 8) (d.toNat % 16) (100 * leNat [x, y, z])).2 := by
    unfold Cfg.rxParam
    simp only
    rw [hst]
    by_cases hb : (inBand (100 * leNat [x, y, z]) && decide (d.toNat % 16 < 6) && decide (d.toNat / 16 % 8 < 6)) = true
    · rw [if_pos ((bits_seven ..).mpr hb), if_pos hb]
      simp only [Bool.and_eq_true] at hb
      have e1 : setRx1DrOffset s ((d >>> 4) &&& 7) = (true, { s with rx1Offset := (d >>> 4) &&& 7 }) := by
        unfold setRx1DrOffset; rw [if_pos (h1.trans hb.2)]
      have e3 : isValidFrequency (or24 x y z * 100) = true := by rw [isValidFrequency_eq, or24_100]; exact hb.1.1
      have e2 : ∀ s, (setRx2 s (or24 x y z * 100) (d &&& 0xf).toNat).2 =
          { s with rx2Freq := or24 x y z * 100, rx2Dr := (d &&& 0xf).toNat } := by
        intro s; unfold setRx2; rw [h2, hb.1.2, e3]; rfl
      unfold rxParamApply
      rw [e1, e2]
      show { cfgOf s with
        off := ((d >>> 4) &&& 7).toNat, rx2Freq := (or24 x y z * 100).toNat, rx2Dr := (d &&& 0xf).toNat } = _
      rw [byte_hi3, byte_lo, or24_100]
    · rw [if_neg (fun h => hb ((bits_seven ..).mp h)), if_neg hb]
  have hq : (if rxParamStatus ((d >>> 4) &&& 7) (d &&& 0xf) (or24 x y z * 100) = 7 then
      rxParamApply s ((d >>> 4) &&& 7) (d &&& 0xf) (or24 x y z * 100) else s).mac.queue.length ≤ 15 := by
    have e : (if rxParamStatus ((d >>> 4) &&& 7) (d &&& 0xf) (or24 x y z * 100) = 7 then
      rxParamApply s ((d >>> 4) &&& 7) (d &&& 0xf) (or24 x y z * 100) else s).mac.queue = (cfgOf (if rxParamStatus ((d >>> 4) &&& 7) (d &&& 0xf) (or24 x y z * 100) = 7 then
      rxParamApply s ((d >>> 4) &&& 7) (d &&& 0xf) (or24 x y z * 100) else s)).queue := rfl
    rw [e, key]
    unfold Cfg.rxParam
    simp only
    split <;> exact h
  have := cfgOf_enqueue _ hq 0x05 [rxParamStatus ((d >>> 4) &&& 7) (d &&& 0xf) (or24 x y z * 100)]
  rw [key] at this
  rw [hst] at this ⊢
  exact this

theorem cfgOf_newChannel (s : St) (h : s.mac.queue.length ≤ 15) (i x y z d : Byte) :
    ∃ ok s', (∀ r, hNewChannel s (i :: x :: y :: z :: d :: r) = .ok (ok, s', [])) ∧
      let t := (cfgOf s).newChannel i.toNat (100 * leNat [x, y, z]) (d.toNat / 16) (d.toNat % 16)
      ok = (t.2.answer [7, t.1]).1 ∧ cfgOf s' = (t.2.answer [7, t.1]).2 := by
  refine ⟨_, _, fun r => rfl, ?_⟩
  simp only
  have hr : (d = 0x50) ↔ (d.toNat / 16 = 5 ∧ d.toNat % 16 = 0) := by
    have : ∀ b : Fin 256, ((⟨b⟩ : Byte) = 0x50) ↔ ((⟨b⟩ : Byte).toNat / 16 = 5 ∧ (⟨b⟩ : Byte).toNat % 16 = 0) := by
      decide +kernel
    exact this d.toFin
  have hf : isValidFrequency (or24 x y z * 100) = inBand (100 * leNat [x, y, z]) := by
    rw [isValidFrequency_eq, or24_100]
  have key : (newChannelRes s.chan i (or24 x y z * 100) d).1 =
        ((cfgOf s).newChannel i.toNat (100 * leNat [x, y, z]) (d.toNat / 16) (d.toNat % 16)).1 ∧
      cfgOf { s with chan := (newChannelRes s.chan i (or24 x y z * 100) d).2 } =
        ((cfgOf s).newChannel i.toNat (100 * leNat [x, y, z]) (d.toNat / 16) (d.toNat % 16)).2 := by
    unfold newChannelRes Cfg.newChannel
    simp only [hf]
    have hset := cfgOf_setChannel s i.toNat (or24 x y z * 100)
    rw [or24_100] at hset
    by_cases hd : d = 0x50
    · have hd' := hr.mp hd
      rw [if_pos hd]
      cases hb : inBand (100 * leNat [x, y, z])
      · have e : ¬ ((0 ||| 2 : Byte) = 3) := by decide
        simp only [hd', and_self, decide_true, ↓reduceIte, Bool.false_eq_true, false_and, e]
        refine ⟨by decide, ?_⟩
        unfold Cfg.setChannel
        rw [if_neg (by rw [hb]; simp)]
      · simp only [hd', and_self, decide_true, ↓reduceIte, true_and]
        have e3 : ((1 ||| 2 : Byte)) = 3 := by decide
        simp only [e3, ↓reduceIte]
        by_cases hi : 16 ≤ i.toNat
        · have : setChannel s.chan i.toNat (or24 x y z * 100) = (.channel, s.chan) := by
            unfold setChannel; rw [if_pos hi]
          rw [this]
          simp only [hi, ↓reduceIte]
          exact ⟨rfl, trivial⟩
        · have : (setChannel s.chan i.toNat (or24 x y z * 100)).1 = .no := by
            unfold setChannel; rw [if_neg hi, hf, hb]; rfl
          rw [this]
          simp only [hi, ↓reduceIte]
          exact ⟨by decide, hset⟩
    · have hd' : ¬(d.toNat / 16 = 5 ∧ d.toNat % 16 = 0) := fun h => hd (hr.mpr h)
      rw [if_neg hd]
      simp only [hd', decide_false, Bool.false_eq_true, ↓reduceIte, false_and, and_false]
      cases inBand (100 * leNat [x, y, z])
      · exact ⟨rfl, rfl⟩
      · exact ⟨rfl, rfl⟩
  have := cfgOf_enqueue { s with chan := (newChannelRes s.chan i (or24 x y z * 100) d).2 } h 0x07
    [(newChannelRes s.chan i (or24 x y z * 100) d).1]
  rw [key.2, key.1] at this
  rw [key.1]
  exact this

theorem cfgOf_rxTiming (s : St) (h : s.mac.queue.length ≤ 15) (d : Byte) :
    ∃ ok s', (∀ r, hRxTimingSetup s (d :: r) = .ok (ok, s', [])) ∧
      let t := { cfgOf s with delay := max 1 (d.toNat % 16) }.answer [8]
      ok = t.1 ∧ cfgOf s' = t.2 := by
  refine ⟨_, _, fun r => rfl, ?_⟩
  simp only
  have hd : (if d &&& 0xf = 0 then 1 else d &&& 0xf : Byte).toNat = max 1 (d.toNat % 16) := by
    have : ∀ b : Fin 256, (if (⟨b⟩ : Byte) &&& 0xf = 0 then 1 else (⟨b⟩ : Byte) &&& 0xf : Byte).toNat =
        max 1 ((⟨b⟩ : Byte).toNat % 16) := by decide +kernel
    exact this d.toFin
  have e : (setRx1Delay s (if d &&& 0xf = 0 then 1 else d &&& 0xf)).2 =
      { s with defaultRx1Delay := BitVec.ofNat 32 (max 1 (d.toNat % 16) * 1000) } := by
    unfold setRx1Delay
    rw [hd, if_pos (by omega)]
  rw [e]
  have := cfgOf_enqueue { s with defaultRx1Delay := BitVec.ofNat 32 (max 1 (d.toNat % 16) * 1000) } h 0x08 []
  have e2 : cfgOf { s with defaultRx1Delay := BitVec.ofNat 32 (max 1 (d.toNat % 16) * 1000) } =
      { cfgOf s with delay := max 1 (d.toNat % 16) } := by
    show { cfgOf s with delay := (BitVec.ofNat 32 (max 1 (d.toNat % 16) * 1000)).toNat / 1000 } = _
    have : (BitVec.ofNat 32 (max 1 (d.toNat % 16) * 1000)).toNat / 1000 = max 1 (d.toNat % 16) := by
      rw [BitVec.toNat_ofNat]; omega
    rw [this]
  rw [e2] at this
  exact this

theorem gpsToUnix_eq (a b c d : Byte) :
    gpsToUnix (or32 a b c d) = BitVec.ofNat 32 (leNat [a, b, c, d] + 315964800 - 18) := by
  apply BitVec.eq_of_toNat_eq
  unfold gpsToUnix
  have h := or32_toNat a b c d
  have hl : (or32 a b c d).toNat < 2 ^ 32 := (or32 a b c d).isLt
  rw [BitVec.toNat_sub, BitVec.toNat_add, BitVec.toNat_ofNat, h] 
  rw [h] at hl
  show (2 ^ 32 - 18 + (leNat [a, b, c, d] + 315964800) % 2 ^ 32) % 2 ^ 32 = _
  omega

/-- Effects without the marks for undefined shifts. -/
def vis (ev : List Ev) : List Ev := ev.filter fun e => e != .ubShift

theorem vis_append (a b : List Ev) : vis (a ++ b) = vis a ++ vis b := List.filter_append ..

theorem vis_shiftMark (b : Byte) : vis (shiftMark b) = [] := by
  unfold shiftMark; split <;> rfl

theorem macLoop_known (bat : Nat → Byte) (n : Nat) {s s' : St} (h : Inv s) (hr0 : s.region.isSome = true) {cid : Byte}
    {rest : Bytes} {c : MacCommand} {ok : Bool} {ev : List Ev} (hf : macCommands.find? (fun c => c.cid == cid) = some c) (hl : c.pldSize ≤ rest.length)
    (hr : runHandler c.handler s rest (bat rest.length) = .ok (ok, s', ev)) :
    (macLoop bat (n + 1) s (cid :: rest) =
      if ok then (macLoop bat n s' (rest.drop c.pldSize) >>= fun x => .ok (x.1, ev ++ x.2)) else .ok (s', ev)) ∧
    Inv s' ∧ s'.region.isSome = true := by
  refine ⟨by simp only [macLoop, hf, if_pos hl, hr, bind, Except.bind], ?_⟩
  obtain ⟨b, s1, ev1, h1, h2, h3⟩ := runHandler_ok h hr0 c (List.mem_of_find?_eq_some hf) rest hl (bat rest.length)
  rw [hr] at h1
  simp only [Except.ok.injEq, Prod.mk.injEq] at h1
  obtain ⟨-, rfl, -⟩ := h1
  exact ⟨h2, by rw [h3.region]; exact hr0⟩

theorem macLoop_short (bat : Nat → Byte) (n : Nat) {s : St} {cid : Byte} {rest : Bytes} {c : MacCommand}
    (hf : macCommands.find? (fun c => c.cid == cid) = some c) (hl : ¬ c.pldSize ≤ rest.length) :
    macLoop bat (n + 1) s (cid :: rest) = .ok (s, []) := by
  simp only [macLoop, hf, if_neg hl]

theorem macLoop_unknown (bat : Nat → Byte) (n : Nat) {s : St} {cid : Byte} {rest : Bytes}
    (hf : macCommands.find? (fun c => c.cid == cid) = none) :
    macLoop bat (n + 1) s (cid :: rest) = .ok (s, []) := by
  simp only [macLoop, hf]

/-- Command identifiers that are not in the table. -/
theorem find_unknown (cid : Byte) (h : cid ≠ 2 ∧ cid ≠ 3 ∧ cid ≠ 4 ∧ cid ≠ 5 ∧ cid ≠ 6 ∧ cid ≠ 7 ∧ cid ≠ 8 ∧ cid ≠ 9 ∧
    cid ≠ 10 ∧ cid ≠ 13) : macCommands.find? (fun c => c.cid == cid) = none := by
  obtain ⟨h1, h2, h3, h4, h5, h6, h7, h8, h9, h10⟩ := h
  rw [List.find?_eq_none]
  intro c hc
  simp only [macCommands, List.mem_cons, List.not_mem_nil, or_false] at hc
  rcases hc with rfl | rfl | rfl | rfl | rfl | rfl | rfl | rfl | rfl | rfl <;>
    simp only [beq_iff_eq] <;> exact fun e => by simp_all

theorem decode_unknown (cid : Byte) (rest : Bytes) (h : cid ≠ 2 ∧ cid ≠ 3 ∧ cid ≠ 4 ∧ cid ≠ 5 ∧ cid ≠ 6 ∧ cid ≠ 7 ∧
    cid ≠ 8 ∧ cid ≠ 9 ∧ cid ≠ 10 ∧ cid ≠ 13) : decode (cid :: rest) = none := by
  obtain ⟨h1, h2, h3, h4, h5, h6, h7, h8, h9, h10⟩ := h
  unfold decode
  simp only
  split <;> first | rfl | (exfalso; rename_i e; first
    | exact h1 (BitVec.eq_of_toNat_eq e) | exact h2 (BitVec.eq_of_toNat_eq e) | exact h3 (BitVec.eq_of_toNat_eq e)
    | exact h4 (BitVec.eq_of_toNat_eq e) | exact h5 (BitVec.eq_of_toNat_eq e) | exact h6 (BitVec.eq_of_toNat_eq e)
    | exact h7 (BitVec.eq_of_toNat_eq e) | exact h8 (BitVec.eq_of_toNat_eq e) | exact h9 (BitVec.eq_of_toNat_eq e)
    | exact h10 (BitVec.eq_of_toNat_eq e))

/-- What one iteration of the parser does, against the specification. -/
def StepOk (bat : Nat → Byte) (n : Nat) (s : St) (l : Bytes) : Prop :=
  match decode l with
  | none => macLoop bat (n + 1) s l = .ok (s, [])
  | some (cmd, r) => ∃ ok s' ev, ((macLoop bat (n + 1) s l =
        if ok then (macLoop bat n s' r >>= fun x => .ok (x.1, ev ++ x.2)) else .ok (s', ev)) ∧
        Inv s' ∧ s'.region.isSome = true) ∧
      ok = ((cfgOf s).exec (bat r.length) cmd).1 ∧ cfgOf s' = ((cfgOf s).exec (bat r.length) cmd).2.1 ∧
      vis ev = ((cfgOf s).exec (bat r.length) cmd).2.2 ∧ r.length < l.length

/-- One command. -/
theorem macLoop_step (bat : Nat → Byte) (n : Nat) {s : St} (h : Inv s) (hr : s.region.isSome = true) (l : Bytes) :
    StepOk bat n s l := by
  match l with
  | [] => rfl
  | cid :: rest =>
    by_cases hu : cid ≠ 2 ∧ cid ≠ 3 ∧ cid ≠ 4 ∧ cid ≠ 5 ∧ cid ≠ 6 ∧ cid ≠ 7 ∧ cid ≠ 8 ∧ cid ≠ 9 ∧ cid ≠ 10 ∧ cid ≠ 13
    · unfold StepOk
      rw [decode_unknown _ _ hu]
      exact macLoop_unknown bat n (find_unknown cid hu)
    have hcase : cid = 2 ∨ cid = 3 ∨ cid = 4 ∨ cid = 5 ∨ cid = 6 ∨ cid = 7 ∨ cid = 8 ∨ cid = 9 ∨ cid = 10 ∨ cid = 13 := by
      by_cases h1 : cid = 2; · exact .inl h1
      by_cases h2 : cid = 3; · simp [h2]
      by_cases h3 : cid = 4; · simp [h3]
      by_cases h4 : cid = 5; · simp [h4]
      by_cases h5 : cid = 6; · simp [h5]
      by_cases h6 : cid = 7; · simp [h6]
      by_cases h7 : cid = 8; · simp [h7]
      by_cases h8 : cid = 9; · simp [h8]
      by_cases h9 : cid = 10; · simp [h9]
      by_cases h10 : cid = 13; · simp [h10]
      exact absurd ⟨h1, h2, h3, h4, h5, h6, h7, h8, h9, h10⟩ hu
    obtain ⟨rg, hrg⟩ := Option.isSome_iff_exists.mp hr
    rcases hcase with rfl | rfl | rfl | rfl | rfl | rfl | rfl | rfl | rfl | rfl
    · -- LinkCheckAns
      match rest with
      | m :: g :: r =>
        have hrun : runHandler .linkCheck s (m :: g :: r) (bat (m :: g :: r).length) =
            .ok (true, s, if (s.mac.cbs.map (·.linkCheck)).getD false then [.linkCheckResult m g] else []) := by
          simp only [runHandler, hLinkCheck]
          cases hc : s.mac.cbs with
          | none => rfl
          | some x => simp only [Option.map_some, Option.getD_some]; split <;> rfl
        refine ⟨_, _, _, macLoop_known bat n h hr (c := ⟨.linkCheck, 2, 2⟩) rfl (by simp) hrun, rfl, rfl, ?_, by simp; omega⟩
        show vis _ = if (s.mac.cbs.map (·.linkCheck)).getD false then _ else _
        split <;> rfl
      | [] => exact macLoop_short bat n (c := ⟨.linkCheck, 2, 2⟩) rfl (by simp)
      | [_] => exact macLoop_short bat n (c := ⟨.linkCheck, 2, 2⟩) rfl (by simp)
    · -- LinkADRReq
      match rest with
      | a :: b :: c :: d :: r =>
        have hrun : runHandler .linkAdr s (a :: b :: c :: d :: r) (bat (a :: b :: c :: d :: r).length) =
            .ok ((adrHandleLinkReq s a (or16 b c) d).1, (adrHandleLinkReq s a (or16 b c) d).2, []) := by
          simp only [runHandler, hLinkAdr, hrg]
        have := cfgOf_linkAdr s h.queue a b c d
        exact ⟨_, _, _, macLoop_known bat n h hr (c := ⟨.linkAdr, 3, 4⟩) rfl (by simp) hrun, this.1, this.2, rfl, by simp; omega⟩
      | [] => exact macLoop_short bat n (c := ⟨.linkAdr, 3, 4⟩) rfl (by simp)
      | [_] => exact macLoop_short bat n (c := ⟨.linkAdr, 3, 4⟩) rfl (by simp)
      | [_, _] => exact macLoop_short bat n (c := ⟨.linkAdr, 3, 4⟩) rfl (by simp)
      | [_, _, _] => exact macLoop_short bat n (c := ⟨.linkAdr, 3, 4⟩) rfl (by simp)
    · -- DutyCycleReq
      match rest with
      | a :: r =>
        have := cfgOf_enqueue s h.queue 4 []
        exact ⟨_, _, _, macLoop_known bat n h hr (c := ⟨.dutyCycle, 4, 1⟩) rfl (by simp) rfl, this.1, this.2, rfl, by simp; omega⟩
      | [] => exact macLoop_short bat n (c := ⟨.dutyCycle, 4, 1⟩) rfl (by simp)
    · -- RXParamSetupReq
      match rest with
      | d :: x :: y :: z :: r =>
        obtain ⟨ok, s', hrun, h1, h2⟩ := cfgOf_rxParam s h.queue d x y z
        exact ⟨_, _, _, macLoop_known bat n h hr (c := ⟨.rxParamSetup, 5, 4⟩) rfl (by simp) (hrun r), h1, h2, rfl, by simp; omega⟩
      | [] => exact macLoop_short bat n (c := ⟨.rxParamSetup, 5, 4⟩) rfl (by simp)
      | [_] => exact macLoop_short bat n (c := ⟨.rxParamSetup, 5, 4⟩) rfl (by simp)
      | [_, _] => exact macLoop_short bat n (c := ⟨.rxParamSetup, 5, 4⟩) rfl (by simp)
      | [_, _, _] => exact macLoop_short bat n (c := ⟨.rxParamSetup, 5, 4⟩) rfl (by simp)
    · -- DevStatusReq
      have hrun : runHandler .devStatus s rest (bat rest.length) =
          .ok ((s.enqueue 6 [if (s.mac.cbs.map (·.battery)).getD false then bat rest.length else 255, s.snr &&& 0x3f]).1,
            (s.enqueue 6 [if (s.mac.cbs.map (·.battery)).getD false then bat rest.length else 255, s.snr &&& 0x3f]).2,
            if (s.mac.cbs.map (·.battery)).getD false then [.getBattery] else []) := by
        simp only [runHandler, hDevStatus]
        cases hc : s.mac.cbs with
        | none => rfl
        | some x => simp only [Option.map_some, Option.getD_some]; split <;> rfl
      have := cfgOf_enqueue s h.queue 6
        [if (s.mac.cbs.map (·.battery)).getD false then bat rest.length else 255, s.snr &&& 0x3f]
      have e : s.snr &&& 0x3f = BitVec.ofInt 8 ((cfgOf s).snr % 64) := margin_eq s.snr
      rw [e] at hrun this
      refine ⟨_, _, _, macLoop_known bat n h hr (c := ⟨.devStatus, 6, 0⟩) rfl (by simp) hrun, this.1, this.2, ?_, by simp⟩
      show vis _ = if (s.mac.cbs.map (·.battery)).getD false then _ else _
      split <;> rfl
    · -- NewChannelReq
      match rest with
      | i :: x :: y :: z :: d :: r =>
        obtain ⟨ok, s', hrun, h1, h2⟩ := cfgOf_newChannel s h.queue i x y z d
        exact ⟨_, _, _, macLoop_known bat n h hr (c := ⟨.newChannel, 7, 5⟩) rfl (by simp) (hrun r), h1, h2, rfl, by simp; omega⟩
      | [] => exact macLoop_short bat n (c := ⟨.newChannel, 7, 5⟩) rfl (by simp)
      | [_] => exact macLoop_short bat n (c := ⟨.newChannel, 7, 5⟩) rfl (by simp)
      | [_, _] => exact macLoop_short bat n (c := ⟨.newChannel, 7, 5⟩) rfl (by simp)
      | [_, _, _] => exact macLoop_short bat n (c := ⟨.newChannel, 7, 5⟩) rfl (by simp)
      | [_, _, _, _] => exact macLoop_short bat n (c := ⟨.newChannel, 7, 5⟩) rfl (by simp)
    · -- RXTimingSetupReq
      match rest with
      | d :: r =>
        obtain ⟨ok, s', hrun, h1, h2⟩ := cfgOf_rxTiming s h.queue d
        exact ⟨_, _, _, macLoop_known bat n h hr (c := ⟨.rxTimingSetup, 8, 1⟩) rfl (by simp) (hrun r), h1, h2, rfl, by simp; omega⟩
      | [] => exact macLoop_short bat n (c := ⟨.rxTimingSetup, 8, 1⟩) rfl (by simp)
    · -- TxParamSetupReq
      match rest with
      | d :: r =>
        exact ⟨_, _, _, macLoop_known bat n h hr (c := ⟨.txParamSetup, 9, 1⟩) rfl (by simp) rfl, rfl, rfl, rfl, by simp; omega⟩
      | [] => exact macLoop_short bat n (c := ⟨.txParamSetup, 9, 1⟩) rfl (by simp)
    · -- DlChannelReq
      match rest with
      | d :: x :: y :: z :: r =>
        exact ⟨_, _, _, macLoop_known bat n h hr (c := ⟨.diChannel, 10, 4⟩) rfl (by simp) rfl, rfl, rfl, rfl, by simp; omega⟩
      | [] => exact macLoop_short bat n (c := ⟨.diChannel, 10, 4⟩) rfl (by simp)
      | [_] => exact macLoop_short bat n (c := ⟨.diChannel, 10, 4⟩) rfl (by simp)
      | [_, _] => exact macLoop_short bat n (c := ⟨.diChannel, 10, 4⟩) rfl (by simp)
      | [_, _, _] => exact macLoop_short bat n (c := ⟨.diChannel, 10, 4⟩) rfl (by simp)
    · -- DeviceTimeAns
      match rest with
      | a :: b :: c :: d :: f :: r =>
        have hrun : runHandler .deviceTime s (a :: b :: c :: d :: f :: r) (bat (a :: b :: c :: d :: f :: r).length) =
            .ok (true, s, if (s.mac.cbs.map (·.timeResult)).getD false then
              shiftMark d ++ [.deviceTimeResult s.mac.devTime (gpsToUnix (or32 a b c d)) f] else []) := by
          simp only [runHandler, hDeviceTime]
          cases hc : s.mac.cbs with
          | none => rfl
          | some x => simp only [Option.map_some, Option.getD_some]; split <;> rfl
        refine ⟨_, _, _, macLoop_known bat n h hr (c := ⟨.deviceTime, 13, 5⟩) rfl (by simp) hrun, rfl, rfl, ?_, by simp; omega⟩
        show vis _ = if (s.mac.cbs.map (·.timeResult)).getD false then
          [.deviceTimeResult (BitVec.ofNat 32 s.mac.devTime.toNat) (BitVec.ofNat 32 (leNat [a, b, c, d] + 315964800 - 18)) f]
          else []
        rw [BitVec.ofNat_toNat, BitVec.setWidth_eq, ← gpsToUnix_eq]
        split
        · rw [vis_append, vis_shiftMark]; rfl
        · rfl
      | [] => exact macLoop_short bat n (c := ⟨.deviceTime, 13, 5⟩) rfl (by simp)
      | [_] => exact macLoop_short bat n (c := ⟨.deviceTime, 13, 5⟩) rfl (by simp)
      | [_, _] => exact macLoop_short bat n (c := ⟨.deviceTime, 13, 5⟩) rfl (by simp)
      | [_, _, _] => exact macLoop_short bat n (c := ⟨.deviceTime, 13, 5⟩) rfl (by simp)
      | [_, _, _, _] => exact macLoop_short bat n (c := ⟨.deviceTime, 13, 5⟩) rfl (by simp)

theorem macLoop_spec (bat : Nat → Byte) : ∀ (n m : Nat) (s s' : St) (l : Bytes) (ev : List Ev), Inv s →
    s.region.isSome = true → l.length ≤ n → l.length ≤ m → macLoop bat n s l = .ok (s', ev) →
    cfgOf s' = ((cfgOf s).execAll bat (commands m l)).1 ∧ vis ev = ((cfgOf s).execAll bat (commands m l)).2 := by
  intro n
  induction n with
  | zero =>
    intro m s s' l ev hi hr hn hm he
    have hl : l = [] := List.eq_nil_of_length_eq_zero (by omega)
    subst hl
    simp only [macLoop, Except.ok.injEq, Prod.mk.injEq] at he
    obtain ⟨rfl, rfl⟩ := he
    have : commands m [] = [] := by cases m <;> rfl
    rw [this]
    exact ⟨rfl, rfl⟩
  | succ n ih =>
    intro m s s' l ev hi hr hn hm he
    have hst := macLoop_step bat n hi hr l
    unfold StepOk at hst
    cases hd : decode l with
    | none =>
      rw [hd] at hst
      simp only at hst
      rw [hst] at he
      simp only [Except.ok.injEq, Prod.mk.injEq] at he
      obtain ⟨rfl, rfl⟩ := he
      have : commands m l = [] := by cases m <;> simp [commands, hd]
      rw [this]
      exact ⟨rfl, rfl⟩
    | some x =>
      obtain ⟨cmd, r⟩ := x
      rw [hd] at hst
      simp only at hst
      obtain ⟨ok, s1, ev1, ⟨h1, hi1, hr1⟩, hok, hcfg, hev, hlen⟩ := hst
      obtain ⟨m, rfl⟩ : ∃ k, m = k + 1 := ⟨m - 1, by omega⟩
      have hcm : commands (m + 1) l = (cmd, r.length) :: commands m r := by simp [commands, hd]
      rw [hcm]
      unfold Cfg.execAll
      simp only
      rw [← hok, ← hcfg, ← hev]
      rw [h1] at he
      cases ok with
      | false =>
        simp only [Bool.false_eq_true, ↓reduceIte, Except.ok.injEq, Prod.mk.injEq] at he ⊢
        obtain ⟨rfl, rfl⟩ := he
        exact ⟨rfl, rfl⟩
      | true =>
        simp only [↓reduceIte] at he ⊢
        cases hl : macLoop bat n s1 r with
        | error u => rw [hl] at he; simp [bind, Except.bind] at he
        | ok y =>
          rw [hl] at he
          simp only [bind, Except.bind, Except.ok.injEq, Prod.mk.injEq] at he
          obtain ⟨rfl, rfl⟩ := he
          have := ih m s1 y.1 r y.2 hi1 hr1 (by omega) (by omega) hl
          rw [vis_append, this.2]
          exact ⟨this.1, rfl⟩

end Uwan
