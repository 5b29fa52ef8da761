import Verif.Lemmas.CodeHandlers

/-! # The command handlers of `mac.c` -/

namespace Uwan.C

theorem or16_bits (a b : Byte) : ofBits .i32 (a.setWidth 32 ||| b.setWidth 32 <<< 8) = (or16 a b).toNat := by
  have h := or16_toNat a b
  have hl : (a.setWidth 32 ||| b.setWidth 32 <<< 8 : BitVec 32).toNat < 65536 := by
    apply Nat.lt_pow_two_of_testBit (n := 16)
    intro i hi
    show (a.setWidth 32 ||| b.setWidth 32 <<< 8 : BitVec 32).getLsbD i = false
    simp only [BitVec.getLsbD_or, BitVec.getLsbD_setWidth, BitVec.getLsbD_shiftLeft]
    rw [BitVec.getLsbD_of_ge a _ (by omega), BitVec.getLsbD_of_ge b _ (by omega)]
    simp
  rw [ofBits_small _ (by omega)] at h ⊢
  unfold Ty.conv at h
  simp only at h
  omega

section
variable {ω : Type} (H : Host ω) (L k : Nat) (s : St) (x : Extra) (fs : List Objs) (w : ω) (t t' : Ty)

theorem run_link_adr (hL : 16 < L) (r : Region) (hr : s.region = some r) (p : Int) (h0 : 0 ≤ p) (h1 : p + 4 ≤ s.frame.length) (hm : s.chan.maxCount < 256)
    (hq : s.mac.queue.length + x.macTail.length = 15) :
    call H Src.prog L (k + 5) "link_adr" [.ptr ⟨none, "uw_frame", p⟩] ⟨enc s x, fs, w⟩ =
    .ok (boolVal (adrHandleLinkReq s (byteAt s.frame p) (or16 (byteAt s.frame (p + 1)) (byteAt s.frame (p + 2))) (byteAt s.frame (p + 3))).1,
      ⟨enc (adrHandleLinkReq s (byteAt s.frame p) (or16 (byteAt s.frame (p + 1)) (byteAt s.frame (p + 2))) (byteAt s.frame (p + 3))).2 (x.eat 2), fs, w⟩) := by
  rw [call_fun H find_link_adr]
  unfold Src.link_adr
  have hc := fun fs => run_adr_handle_link_req H L k s x fs w .u8 .i32 hL r hr (byteAt s.frame p) (or16 (byteAt s.frame (p + 1)) (byteAt s.frame (p + 2))) (byteAt s.frame (p + 3)) .u8 hm hq
  crun [bits_byte, bits_shl, or16_bits, hc]

theorem run_duty_cycle (hq : s.mac.queue.length + x.macTail.length = 15) (r : Ref) :
    call H Src.prog L (k + 3) "duty_cycle" [.ptr r] ⟨enc s x, fs, w⟩ = .ok (boolVal (s.enqueue 0x04 []).1, ⟨enc (s.enqueue 0x04 []).2 (x.eat 1), fs, w⟩) := by
  rw [call_fun H find_duty_cycle]
  unfold Src.duty_cycle
  have he := fun fs t => run_mac_enqueue H L k s x fs w t t 4 (by omega) (by omega) [] .null 0 rfl (by decide) (behind_null fs w) hq
  crun [he]
  rfl

theorem run_tx_param_setup (r : Ref) : call H Src.prog L (k + 1) "tx_param_setup" [.ptr r] ⟨enc s x, fs, w⟩ = .ok (boolVal true, ⟨enc s x, fs, w⟩) := by
  rw [call_fun H find_tx_param_setup]
  unfold Src.tx_param_setup
  crun []

theorem run_di_channel (r : Ref) : call H Src.prog L (k + 1) "di_channel" [.ptr r] ⟨enc s x, fs, w⟩ = .ok (boolVal true, ⟨enc s x, fs, w⟩) := by
  rw [call_fun H find_di_channel]
  unfold Src.di_channel
  crun []

theorem run_rx_timing_setup (p : Int) (h0 : 0 ≤ p) (h1 : p + 1 ≤ s.frame.length) (hq : s.mac.queue.length + x.macTail.length = 15) :
    ∃ d, d = (if byteAt s.frame p &&& 0xf = 0 then 1 else byteAt s.frame p &&& 0xf) ∧
    call H Src.prog L (k + 3) "rx_timing_setup" [.ptr ⟨none, "uw_frame", p⟩] ⟨enc s x, fs, w⟩ =
    .ok (boolVal ((setRx1Delay s d).2.enqueue 0x08 []).1, ⟨enc ((setRx1Delay s d).2.enqueue 0x08 []).2 (x.eat 1), fs, w⟩) := by
  refine ⟨_, rfl, ?_⟩
  rw [call_fun H find_rx_timing_setup]
  unfold Src.rx_timing_setup
  have hl := (byteAt s.frame p &&& 0xf).isLt
  have hs : ∀ (d : Byte) k fs, call H Src.prog L (k + 1) "uwan_set_rx1_delay" [.int .u8 (d.toNat : Int)] ⟨enc s x, fs, w⟩ =
      .ok (boolVal (setRx1Delay s d).1, ⟨enc (setRx1Delay s d).2 x, fs, w⟩) := by
    intro d k fs
    have hd := d.isLt
    have := run_uwan_set_rx1_delay H L k s x fs w .u8 d.toNat (by omega) (by omega)
    rwa [ofInt8_toNat] at this
  have hk : ∀ d, (setRx1Delay s d).2.mac = s.mac := by
    intro d
    unfold setRx1Delay
    split <;> rfl
  have he := fun d fs t => run_mac_enqueue H L k (setRx1Delay s d).2 x fs w t t 8 (by omega) (by omega) [] .null 0 rfl (by decide) (behind_null fs w) (by rw [hk d]; exact hq)
  by_cases hz : byteAt s.frame p &&& 0xf = 0
  · rw [if_pos hz]
    have hz' : ((byteAt s.frame p &&& 0xf).toNat : Int) = 0 := by rw [hz]; rfl
    have hs := hs 1
    have he := he 1
    have e1 : ((1 : Byte).toNat : Int) = 1 := rfl
    rw [e1] at hs
    crun [and15_conv, hz', hs, he, List.length_nil]
  · rw [if_neg hz]
    have hz' : (byteAt s.frame p &&& 0xf).toNat ≠ 0 := fun h => hz (BitVec.eq_of_toNat_eq h)
    have hs := hs (byteAt s.frame p &&& 0xf)
    have he := he (byteAt s.frame p &&& 0xf)
    crun [and15_conv, hs, he, List.length_nil]

theorem and15w (b : Byte) : ofBits .i32 (b.setWidth 32 &&& bits 15) = ((b &&& 0xf).toNat : Int) := by
  rw [← bits_byte]
  exact and15 b

theorem two_pow0 : (2 : Int) ^ 0 = 1 := rfl
theorem two_pow1 : (2 : Int) ^ 1 = 2 := rfl
theorem two_pow2 : (2 : Int) ^ 2 = 4 := rfl

/-- The frequency in a command. -/
theorem freq_int (a b c : Byte) : (((or24 a b c).toNat : Int) * 100) = ((or24 a b c * 100 : U32).toNat : Int) := by
  have h := or24_lt a b c
  have e : (100 : U32).toNat = 100 := rfl
  rw [BitVec.toNat_mul, e]
  omega

theorem run_new_channel (hL : 16 < L) (p : Int) (h0 : 0 ≤ p) (h1 : p + 5 ≤ s.frame.length) (hm : s.chan.maxCount < 256) (hq : s.mac.queue.length + x.macTail.length = 15) :
    ∃ t, t = newChannelRes s.chan (byteAt s.frame p) (or24 (byteAt s.frame (p + 1)) (byteAt s.frame (p + 2)) (byteAt s.frame (p + 3)) * 100) (byteAt s.frame (p + 4)) ∧
    call H Src.prog L (k + 4) "new_channel" [.ptr ⟨none, "uw_frame", p⟩] ⟨enc s x, fs, w⟩ =
    .ok (boolVal ({ s with chan := t.2 }.enqueue 0x07 [t.1]).1, ⟨enc ({ s with chan := t.2 }.enqueue 0x07 [t.1]).2 (x.eat 2), fs, w⟩) := by
  refine ⟨_, rfl, ?_⟩
  rw [call_fun H find_new_channel]
  unfold Src.new_channel
  have hf := or24_lt (byteAt s.frame (p + 1)) (byteAt s.frame (p + 2)) (byteAt s.frame (p + 3))
  have hF := (or24 (byteAt s.frame (p + 1)) (byteAt s.frame (p + 2)) (byteAt s.frame (p + 3)) * 100).isLt
  have hi := freq_int (byteAt s.frame (p + 1)) (byteAt s.frame (p + 2)) (byteAt s.frame (p + 3))
  have hidx := (byteAt s.frame p).isLt
  have hr := (byteAt s.frame (p + 4)).isLt
  have hset := fun k fs => run_set_channel_int H L k s x fs w .u8 hL ((byteAt s.frame p).toNat : Int) (by omega) (by omega)
    ((or24 (byteAt s.frame (p + 1)) (byteAt s.frame (p + 2)) (byteAt s.frame (p + 3)) * 100 : U32).toNat : Int) .u32 (by omega) (by omega) hm
  simp only [Int.toNat_natCast, ofInt32_toNat] at hset
  generalize hFd : (or24 (byteAt s.frame (p + 1)) (byteAt s.frame (p + 2)) (byteAt s.frame (p + 3)) * 100 : U32) = F at *
  have h50 : (byteAt s.frame (p + 4) = 0x50) ↔ (byteAt s.frame (p + 4)).toNat = 80 := by
    constructor
    · intro h; rw [h]; rfl
    · intro h; exact BitVec.eq_of_toNat_eq h
  by_cases hd : byteAt s.frame (p + 4) = 0x50
  · have hd' : ((byteAt s.frame (p + 4)).toNat : Int) = 80 := by rw [hd]; rfl
    cases hv : isValidFrequency F
    · have hres : newChannelRes s.chan (byteAt s.frame p) F (byteAt s.frame (p + 4)) = (2, s.chan) := by
        unfold newChannelRes
        simp [hv, hd]
      rw [hres]
      show _ = Except.ok (boolVal (s.enqueue 0x07 [2]).1, (⟨enc (s.enqueue 0x07 [2]).2 (x.eat 2), fs, w⟩ : Mem ω))
      crun [two_pow0, two_pow1, bits_byte, bits_shl, bits_ofBits_i32, or24_bits, ofBits_or24, hi, run_is_valid_frequency, hv, enqueue_at, enqAt_one, hd']
    · have hres : newChannelRes s.chan (byteAt s.frame p) F (byteAt s.frame (p + 4)) =
          (if (setChannel s.chan (byteAt s.frame p).toNat F).1 ≠ .no then 0 else 3, (setChannel s.chan (byteAt s.frame p).toNat F).2) := by
        unfold newChannelRes
        simp [hv, hd]
      rw [hres]
      by_cases hn : (setChannel s.chan (byteAt s.frame p).toNat F).1 = .no
      · rw [if_neg (by simp [hn])]
        have hn' : Err.num (setChannel s.chan (byteAt s.frame p).toNat F).1 = 0 := by rw [hn]; rfl
        crun [two_pow0, two_pow1, bits_byte, bits_shl, bits_ofBits_i32, or24_bits, ofBits_or24, hi, run_is_valid_frequency, hv, enqueue_at, enqAt_one, hd', hset, hn', Int.natCast_zero]
      · rw [if_pos hn]
        have hn' : Err.num (setChannel s.chan (byteAt s.frame p).toNat F).1 ≠ 0 := by
          cases h : (setChannel s.chan (byteAt s.frame p).toNat F).1 <;> first | exact absurd h hn | decide
        have hn'' : Err.num (setChannel s.chan (byteAt s.frame p).toNat F).1 < 12 := by
          cases (setChannel s.chan (byteAt s.frame p).toNat F).1 <;> decide
        crun [two_pow0, two_pow1, bits_byte, bits_shl, bits_ofBits_i32, or24_bits, ofBits_or24, hi, run_is_valid_frequency, hv, enqueue_at, enqAt_one, hd', hset]
  · have hd' : (byteAt s.frame (p + 4)).toNat ≠ 80 := fun h => hd (h50.mpr h)
    cases hv : isValidFrequency F
    · have hres : newChannelRes s.chan (byteAt s.frame p) F (byteAt s.frame (p + 4)) = (0, s.chan) := by
        unfold newChannelRes
        simp only [hv, if_neg hd, Bool.false_eq_true, if_false]
        rfl
      rw [hres]
      show _ = Except.ok (boolVal (s.enqueue 0x07 [0]).1, (⟨enc (s.enqueue 0x07 [0]).2 (x.eat 2), fs, w⟩ : Mem ω))
      crun [two_pow0, two_pow1, bits_byte, bits_shl, bits_ofBits_i32, or24_bits, ofBits_or24, hi, run_is_valid_frequency, hv, enqueue_at, enqAt_one, hd']
    · have hres : newChannelRes s.chan (byteAt s.frame p) F (byteAt s.frame (p + 4)) = (1, s.chan) := by
        unfold newChannelRes
        simp only [hv, if_neg hd, if_true]
        rfl
      rw [hres]
      show _ = Except.ok (boolVal (s.enqueue 0x07 [1]).1, (⟨enc (s.enqueue 0x07 [1]).2 (x.eat 2), fs, w⟩ : Mem ω))
      crun [two_pow0, two_pow1, bits_byte, bits_shl, bits_ofBits_i32, or24_bits, ofBits_or24, hi, run_is_valid_frequency, hv, enqueue_at, enqAt_one, hd']

theorem rxOffset_keeps (n : Byte) : (setRx1DrOffset s n).2.mac = s.mac := by
  unfold setRx1DrOffset
  split <;> rfl

theorem rx2_keeps (f : U32) (n : Nat) : (setRx2 s f n).2.mac = s.mac := by
  unfold setRx2
  split
  · rfl
  · split <;> rfl

theorem rxParam_keeps (o d : Byte) (f : U32) : (rxParamApply s o d f).mac = s.mac := by
  unfold rxParamApply
  rw [rx2_keeps, rxOffset_keeps]

set_option maxHeartbeats 1000000 in
theorem run_rx_param_setup (p : Int) (h0 : 0 ≤ p) (h1 : p + 4 ≤ s.frame.length) (hq : s.mac.queue.length + x.macTail.length = 15) :
    ∃ off rx2dr f st, off = ((byteAt s.frame p >>> 4) &&& 7) ∧ rx2dr = (byteAt s.frame p &&& 0xf) ∧
      f = (or24 (byteAt s.frame (p + 1)) (byteAt s.frame (p + 2)) (byteAt s.frame (p + 3)) * 100) ∧ st = rxParamStatus off rx2dr f ∧
    call H Src.prog L (k + 4) "rx_param_setup" [.ptr ⟨none, "uw_frame", p⟩] ⟨enc s x, fs, w⟩ =
    .ok (boolVal ((if st = 7 then rxParamApply s off rx2dr f else s).enqueue 0x05 [st]).1,
      ⟨enc ((if st = 7 then rxParamApply s off rx2dr f else s).enqueue 0x05 [st]).2 (x.eat 2), fs, w⟩) := by
  refine ⟨_, _, _, _, rfl, rfl, rfl, rfl, ?_⟩
  rw [call_fun H find_rx_param_setup]
  unfold Src.rx_param_setup
  have hf := or24_lt (byteAt s.frame (p + 1)) (byteAt s.frame (p + 2)) (byteAt s.frame (p + 3))
  have hF := (or24 (byteAt s.frame (p + 1)) (byteAt s.frame (p + 2)) (byteAt s.frame (p + 3)) * 100).isLt
  have hi := freq_int (byteAt s.frame (p + 1)) (byteAt s.frame (p + 2)) (byteAt s.frame (p + 3))
  have hidx := (byteAt s.frame p).isLt
  have ho := ((byteAt s.frame p >>> 4) &&& 7).isLt
  have hd := (byteAt s.frame p &&& 0xf).isLt
  generalize hFd : (or24 (byteAt s.frame (p + 1)) (byteAt s.frame (p + 2)) (byteAt s.frame (p + 3)) * 100 : U32) = F at *
  have hset1 := fun k fs => run_uwan_set_rx1_dr_offset H L k s x fs w .u8 (((byteAt s.frame p >>> 4) &&& 7).toNat : Int) (by omega) (by omega)
  rw [ofInt8_toNat] at hset1
  have hset2 := fun k fs => run_uwan_set_rx2 H L k (setRx1DrOffset s ((byteAt s.frame p >>> 4) &&& 7)).2 x fs w .u32 (F.toNat : Int) .u32 ((byteAt s.frame p &&& 0xf).toNat : Int) (by omega) (by omega) (by omega) (by omega)
  simp only [ofInt32_toNat, Int.toNat_natCast] at hset2
  have hk := rxParam_keeps s ((byteAt s.frame p >>> 4) &&& 7) (byteAt s.frame p &&& 0xf) F
  have hst : rxParamStatus ((byteAt s.frame p >>> 4) &&& 7) (byteAt s.frame p &&& 0xf) F = rxParamStatus ((byteAt s.frame p >>> 4) &&& 7) (byteAt s.frame p &&& 0xf) F := rfl
  conv at hst => rhs; unfold rxParamStatus
  cases hv1 : isValidDr ((byteAt s.frame p >>> 4) &&& 7).toNat <;> cases hv2 : isValidDr (byteAt s.frame p &&& 0xf).toNat <;> cases hv3 : isValidFrequency F <;>
    rw [hv1, hv2, hv3] at hst
  case true.true.true =>
    have hst : rxParamStatus ((byteAt s.frame p >>> 4) &&& 7) (byteAt s.frame p &&& 0xf) F = 7 := hst
    rw [hst, if_pos rfl]
    have hA : (setRx2 (setRx1DrOffset s ((byteAt s.frame p >>> 4) &&& 7)).2 F (byteAt s.frame p &&& 0xf).toNat).2 =
      rxParamApply s ((byteAt s.frame p >>> 4) &&& 7) (byteAt s.frame p &&& 0xf) F := rfl
    rw [hA] at hset2
    generalize rxParamApply s ((byteAt s.frame p >>> 4) &&& 7) (byteAt s.frame p &&& 0xf) F = S at *
    have hq2 : S.mac.queue.length + x.macTail.length = 15 := by rw [hk]; exact hq
    crun [two_pow0, two_pow1, two_pow2, bits_byte, bits_shl, bits_ofBits_i32, or24_bits, ofBits_or24, hi, and15w, run_is_valid_dr, run_is_valid_frequency, hv1, hv2, hv3, hset1, hset2, enqueue_at, enqAt_one]
  case false.false.false =>
    have hst : rxParamStatus ((byteAt s.frame p >>> 4) &&& 7) (byteAt s.frame p &&& 0xf) F = 0 := hst
    rw [hst, if_neg (by decide)]
    crun [two_pow0, two_pow1, two_pow2, bits_byte, bits_shl, bits_ofBits_i32, or24_bits, ofBits_or24, hi, and15w, run_is_valid_dr, run_is_valid_frequency, hv1, hv2, hv3, enqueue_at, enqAt_one]
  case false.false.true =>
    have hst : rxParamStatus ((byteAt s.frame p >>> 4) &&& 7) (byteAt s.frame p &&& 0xf) F = 1 := hst
    rw [hst, if_neg (by decide)]
    crun [two_pow0, two_pow1, two_pow2, bits_byte, bits_shl, bits_ofBits_i32, or24_bits, ofBits_or24, hi, and15w, run_is_valid_dr, run_is_valid_frequency, hv1, hv2, hv3, enqueue_at, enqAt_one]
  case false.true.false =>
    have hst : rxParamStatus ((byteAt s.frame p >>> 4) &&& 7) (byteAt s.frame p &&& 0xf) F = 2 := hst
    rw [hst, if_neg (by decide)]
    crun [two_pow0, two_pow1, two_pow2, bits_byte, bits_shl, bits_ofBits_i32, or24_bits, ofBits_or24, hi, and15w, run_is_valid_dr, run_is_valid_frequency, hv1, hv2, hv3, enqueue_at, enqAt_one]
  case false.true.true =>
    have hst : rxParamStatus ((byteAt s.frame p >>> 4) &&& 7) (byteAt s.frame p &&& 0xf) F = 3 := hst
    rw [hst, if_neg (by decide)]
    crun [two_pow0, two_pow1, two_pow2, bits_byte, bits_shl, bits_ofBits_i32, or24_bits, ofBits_or24, hi, and15w, run_is_valid_dr, run_is_valid_frequency, hv1, hv2, hv3, enqueue_at, enqAt_one]
  case true.false.false =>
    have hst : rxParamStatus ((byteAt s.frame p >>> 4) &&& 7) (byteAt s.frame p &&& 0xf) F = 4 := hst
    rw [hst, if_neg (by decide)]
    crun [two_pow0, two_pow1, two_pow2, bits_byte, bits_shl, bits_ofBits_i32, or24_bits, ofBits_or24, hi, and15w, run_is_valid_dr, run_is_valid_frequency, hv1, hv2, hv3, enqueue_at, enqAt_one]
  case true.false.true =>
    have hst : rxParamStatus ((byteAt s.frame p >>> 4) &&& 7) (byteAt s.frame p &&& 0xf) F = 5 := hst
    rw [hst, if_neg (by decide)]
    crun [two_pow0, two_pow1, two_pow2, bits_byte, bits_shl, bits_ofBits_i32, or24_bits, ofBits_or24, hi, and15w, run_is_valid_dr, run_is_valid_frequency, hv1, hv2, hv3, enqueue_at, enqAt_one]
  case true.true.false =>
    have hst : rxParamStatus ((byteAt s.frame p >>> 4) &&& 7) (byteAt s.frame p &&& 0xf) F = 6 := hst
    rw [hst, if_neg (by decide)]
    crun [two_pow0, two_pow1, two_pow2, bits_byte, bits_shl, bits_ofBits_i32, or24_bits, ofBits_or24, hi, and15w, run_is_valid_dr, run_is_valid_frequency, hv1, hv2, hv3, enqueue_at, enqAt_one]

end
end Uwan.C
