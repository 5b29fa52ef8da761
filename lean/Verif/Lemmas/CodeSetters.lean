import Verif.Lemmas.CodeOps

/-! # The setters of `src/stack.c` and `src/adr.c` do what the model says -/

namespace Uwan.C

variable {ω : Type} (H : Host ω) (L k : Nat) (s : St) (x : Extra) (fs : List Objs) (w : ω) (t : Ty)

theorem run_is_valid_dr (n : Int) (h0 : 0 ≤ n) (h1 : n < 4294967296) : call H Src.prog L (k + 1) "is_valid_dr" [.int t n] ⟨enc s x, fs, w⟩ =
    .ok (boolVal (isValidDr n.toNat), ⟨enc s x, fs, w⟩) := by
  rw [call_fun H find_is_valid_dr]
  unfold Src.is_valid_dr
  crun []
  unfold isValidDr
  have : (n % 256 < 6) ↔ (n.toNat % 256 < 6) := by omega
  simp only [this]

theorem run_is_valid_frequency (n : Int) (h0 : 0 ≤ n) (h1 : n < 4294967296) : call H Src.prog L (k + 1) "is_valid_frequency" [.int t n] ⟨enc s x, fs, w⟩ =
    .ok (boolVal (isValidFrequency (BitVec.ofInt 32 n)), ⟨enc s x, fs, w⟩) := by
  rw [call_fun H find_is_valid_frequency]
  unfold Src.is_valid_frequency isValidFrequency
  have := ofInt32_nat n h0 h1
  by_cases h2 : 860000000 ≤ n
  · have h3 : 860000000 ≤ (BitVec.ofInt 32 n).toNat := by omega
    by_cases h4 : n ≤ 870000000
    · have h5 : (BitVec.ofInt 32 n).toNat ≤ 870000000 := by omega
      simp only [h3, h5, decide_true, Bool.and_self]
      crun []
    · have h5 : ¬ (BitVec.ofInt 32 n).toNat ≤ 870000000 := by omega
      simp only [h3, h5, decide_true, decide_false, Bool.and_false]
      crun []
  · have h3 : ¬ 860000000 ≤ (BitVec.ofInt 32 n).toNat := by omega
    simp only [h3, decide_false, Bool.false_and]
    crun []

theorem run_is_valid_tx_power (n : Int) (h0 : 0 ≤ n) (h1 : n < 256) : call H Src.prog L (k + 1) "is_valid_tx_power" [.int t n] ⟨enc s x, fs, w⟩ =
    .ok (boolVal (isValidTxPower (BitVec.ofInt 8 n)), ⟨enc s x, fs, w⟩) := by
  rw [call_fun H find_is_valid_tx_power]
  unfold Src.is_valid_tx_power isValidTxPower
  have := ofInt8_nat n h0 h1
  have : (n < 8) ↔ ((BitVec.ofInt 8 n).toNat < 8) := by omega
  crun [this]

theorem run_set_nb_trans (n : Int) (h0 : 0 ≤ n) (h1 : n < 256) : call H Src.prog L (k + 1) "set_nb_trans" [.int t n] ⟨enc s x, fs, w⟩ =
    .ok (boolVal (setNbTransInt s (BitVec.ofInt 8 n)).1, ⟨enc (setNbTransInt s (BitVec.ofInt 8 n)).2 x, fs, w⟩) := by
  rw [call_fun H find_set_nb_trans]
  unfold Src.set_nb_trans setNbTransInt
  have := ofInt8_nat n h0 h1
  by_cases h2 : 1 ≤ n
  · by_cases h3 : n ≤ 15
    · rw [if_pos ⟨by omega, by omega⟩]
      crun []
    · rw [if_neg (by omega)]
      crun []
  · rw [if_neg (by omega)]
    crun []

theorem run_reset_nb_trans : call H Src.prog L (k + 1) "reset_nb_trans" [] ⟨enc s x, fs, w⟩ = .ok (.null, ⟨enc (resetNbTrans s) x, fs, w⟩) := by
  rw [call_fun H find_reset_nb_trans]
  unfold Src.reset_nb_trans resetNbTrans
  crun []

theorem run_set_tx_power (n : Int) (h0 : 0 ≤ n) (h1 : n < 256) : call H Src.prog L (k + 2) "set_tx_power" [.int t n] ⟨enc s x, fs, w⟩ =
    .ok (boolVal (setTxPowerInt s (BitVec.ofInt 8 n)).1, ⟨enc (setTxPowerInt s (BitVec.ofInt 8 n)).2 x, fs, w⟩) := by
  rw [call_fun H find_set_tx_power]
  unfold Src.set_tx_power setTxPowerInt
  cases hv : isValidTxPower (BitVec.ofInt 8 n)
  · crun [run_is_valid_tx_power, hv]
  · crun [run_is_valid_tx_power, hv]

theorem run_uwan_set_nb_trans (n : Byte) : call H Src.prog L (k + 2) "uwan_set_nb_trans" [byteVal n] ⟨enc s x, fs, w⟩ =
    .ok (boolVal (setNbTrans s n).1, ⟨enc (setNbTrans s n).2 x, fs, w⟩) := by
  rw [call_fun H find_uwan_set_nb_trans]
  unfold Src.uwan_set_nb_trans setNbTrans
  cases hv : (setNbTransInt s n).1
  · have : (setNbTransInt s n).2 = s := by
      unfold setNbTransInt at hv ⊢
      split <;> simp_all
    crun [run_set_nb_trans, hv, this]
  · crun [run_set_nb_trans, hv]

theorem run_uwan_set_tx_power (n : Byte) : call H Src.prog L (k + 3) "uwan_set_tx_power" [byteVal n] ⟨enc s x, fs, w⟩ =
    .ok (boolVal (setTxPower s n).1, ⟨enc (setTxPower s n).2 x, fs, w⟩) := by
  rw [call_fun H find_uwan_set_tx_power]
  unfold Src.uwan_set_tx_power setTxPower
  cases hv : (setTxPowerInt s n).1
  · have : (setTxPowerInt s n).2 = s := by
      unfold setTxPowerInt at hv ⊢
      split <;> simp_all
    crun [run_set_tx_power, hv, this]
  · crun [run_set_tx_power, hv]

theorem run_uwan_set_max_eirp (e : Byte) : call H Src.prog L (k + 1) "uwan_set_max_eirp" [i8Val e] ⟨enc s x, fs, w⟩ =
    .ok (.null, ⟨enc { s with maxEirp := e } x, fs, w⟩) := by
  rw [call_fun H find_uwan_set_max_eirp]
  unfold Src.uwan_set_max_eirp
  obtain ⟨h0, h1⟩ := i8_bounds e
  crun [BitVec.ofInt_toInt]

theorem run_uwan_set_rx1_dr_offset (n : Int) (h0 : 0 ≤ n) (h1 : n < 256) : call H Src.prog L (k + 2) "uwan_set_rx1_dr_offset" [.int t n] ⟨enc s x, fs, w⟩ =
    .ok (boolVal (setRx1DrOffset s (BitVec.ofInt 8 n)).1, ⟨enc (setRx1DrOffset s (BitVec.ofInt 8 n)).2 x, fs, w⟩) := by
  rw [call_fun H find_uwan_set_rx1_dr_offset]
  unfold Src.uwan_set_rx1_dr_offset setRx1DrOffset
  have : (BitVec.ofInt 8 n).toNat = n.toNat := by have := ofInt8_nat n h0 h1; omega
  rw [this]
  cases hv : isValidDr n.toNat
  · crun [run_is_valid_dr, hv]
  · crun [run_is_valid_dr, hv]

theorem run_uwan_set_rx1_delay (n : Int) (h0 : 0 ≤ n) (h1 : n < 256) : call H Src.prog L (k + 1) "uwan_set_rx1_delay" [.int t n] ⟨enc s x, fs, w⟩ =
    .ok (boolVal (setRx1Delay s (BitVec.ofInt 8 n)).1, ⟨enc (setRx1Delay s (BitVec.ofInt 8 n)).2 x, fs, w⟩) := by
  rw [call_fun H find_uwan_set_rx1_delay]
  unfold Src.uwan_set_rx1_delay setRx1Delay
  have : (BitVec.ofInt 8 n).toNat = n.toNat := by have := ofInt8_nat n h0 h1; omega
  rw [this]
  have h : BitVec.ofNat 32 (n.toNat * 1000) = BitVec.ofInt 32 (n * 1000) := by
    have : n * 1000 = ((n.toNat * 1000 : Nat) : Int) := by omega
    rw [this, BitVec.ofInt_natCast]
  rw [h]
  by_cases h1 : 1 ≤ n
  · by_cases h2 : n ≤ 15
    · rw [if_pos ⟨by omega, by omega⟩]
      crun []
    · rw [if_neg (by omega)]
      crun []
  · rw [if_neg (by omega)]
    crun []

theorem run_uwan_set_rx2 (f : Int) (t' : Ty) (d : Int) (h0 : 0 ≤ f) (h1 : f < 4294967296) (h2 : 0 ≤ d) (h3 : d < 4294967296) :
    call H Src.prog L (k + 2) "uwan_set_rx2" [.int t f, .int t' d] ⟨enc s x, fs, w⟩ =
    .ok (enumVal (Err.num (setRx2 s (BitVec.ofInt 32 f) d.toNat).1), ⟨enc (setRx2 s (BitVec.ofInt 32 f) d.toNat).2 x, fs, w⟩) := by
  rw [call_fun H find_uwan_set_rx2]
  unfold Src.uwan_set_rx2 setRx2
  cases hv : isValidDr d.toNat
  · crun [run_is_valid_dr, run_is_valid_frequency, hv]; rfl
  · cases hf : isValidFrequency (BitVec.ofInt 32 f)
    · crun [run_is_valid_dr, run_is_valid_frequency, hv, hf]; rfl
    · crun [run_is_valid_dr, run_is_valid_frequency, hv, hf]; rfl

theorem run_uwan_set_dr (d : Nat) (h : d < 4294967296) : call H Src.prog L (k + 2) "uwan_set_dr" [enumVal d] ⟨enc s x, fs, w⟩ =
    .ok (.null, ⟨enc (setDr s d) x, fs, w⟩) := by
  rw [call_fun H find_uwan_set_dr]
  unfold Src.uwan_set_dr setDr
  cases hv : isValidDr d
  · crun [run_is_valid_dr, hv]
  · crun [run_is_valid_dr, hv]

theorem run_uwan_is_joined : call H Src.prog L (k + 1) "uwan_is_joined" [] ⟨enc s x, fs, w⟩ = .ok (boolVal s.session.isJoined, ⟨enc s x, fs, w⟩) := by
  rw [call_fun H find_uwan_is_joined]
  unfold Src.uwan_is_joined
  crun []

theorem run_uwan_adr_is_enabled : call H Src.prog L (k + 1) "uwan_adr_is_enabled" [] ⟨enc s x, fs, w⟩ = .ok (boolVal s.adr.enabled, ⟨enc s x, fs, w⟩) := by
  rw [call_fun H find_uwan_adr_is_enabled]
  unfold Src.uwan_adr_is_enabled
  crun []

theorem run_uwan_adr_enable (b : Bool) : call H Src.prog L (k + 1) "uwan_adr_enable" [boolVal b] ⟨enc s x, fs, w⟩ =
    .ok (.null, ⟨enc { s with adr := adrEnable s.adr b } x, fs, w⟩) := by
  rw [call_fun H find_uwan_adr_enable]
  unfold Src.uwan_adr_enable adrEnable
  crun []
  rfl

theorem run_uwan_adr_setup_ack (a b : Byte) : call H Src.prog L (k + 1) "uwan_adr_setup_ack" [byteVal a, byteVal b] ⟨enc s x, fs, w⟩ =
    .ok (.null, ⟨enc { s with adr := adrSetupAck s.adr a b } x, fs, w⟩) := by
  rw [call_fun H find_uwan_adr_setup_ack]
  unfold Src.uwan_adr_setup_ack adrSetupAck
  crun []

theorem run_get_snr : call H Src.prog L (k + 1) "get_snr" [] ⟨enc s x, fs, w⟩ = .ok (i8Val s.snr, ⟨enc s x, fs, w⟩) := by
  rw [call_fun H find_get_snr]
  unfold Src.get_snr
  obtain ⟨h0, h1⟩ := i8_bounds s.snr
  crun []

theorem run_get_current_dr (h0 : s.session.dr < 4294967296) (h1 : s.defaultDr < 4294967296) :
    call H Src.prog L (k + 2) "get_current_dr" [] ⟨enc s x, fs, w⟩ = .ok (enumVal (currentDr s), ⟨enc s x, fs, w⟩) := by
  rw [call_fun H find_get_current_dr]
  unfold Src.get_current_dr currentDr
  cases hv : s.adr.enabled
  · crun [run_uwan_adr_is_enabled, hv]
  · crun [run_uwan_adr_is_enabled, hv]

theorem run_adr_get_req_bit (h0 : s.session.dr < 4294967296) : call H Src.prog L (k + 1) "adr_get_req_bit" [] ⟨enc s x, fs, w⟩ =
    .ok (boolVal (adrGetReqBit s), ⟨enc s x, fs, w⟩) := by
  rw [call_fun H find_adr_get_req_bit]
  unfold Src.adr_get_req_bit adrGetReqBit
  cases hv : s.adr.enabled
  · rw [if_pos (Or.inl rfl)]
    crun [hv]
  · by_cases hd : s.session.dr = 0
    · rw [if_pos (Or.inr hd)]
      crun [hv]
    · rw [if_neg (by simp [hd])]
      crun [hv]
      simp only [Int.ofNat_le]

theorem run_adr_handle_uplink (h0 : s.session.dr < 4294967296) : call H Src.prog L (k + 1) "adr_handle_uplink" [] ⟨enc s x, fs, w⟩ =
    .ok (.null, ⟨enc (adrHandleUplink s) x, fs, w⟩) := by
  rw [call_fun H find_adr_handle_uplink]
  unfold Src.adr_handle_uplink adrHandleUplink
  have hc : (((s.adr.ackCnt + 1).toNat : Nat) : Int) = ((s.adr.ackCnt.toNat : Int) + 1) % 4294967296 := by
    rw [BitVec.toNat_add]
    rfl
  have hb : BitVec.ofInt 32 (((s.adr.ackCnt.toNat : Int) + 1) % 4294967296) = s.adr.ackCnt + 1 := by
    rw [← hc, ofInt32_toNat]
  by_cases hd : s.session.dr = 0
  · rw [if_neg (by simp [hd])]
    crun [hb]
  · by_cases hl : (s.adr.ackCnt + 1).toNat > s.adr.ackLimit.toNat + s.adr.ackDelay.toNat
    · rw [if_pos ⟨hd, hl⟩]
      have hb' : BitVec.ofInt 32 ((s.adr.ackCnt.toNat : Int) + 1) = s.adr.ackCnt + 1 := by
        rw [← hb]
        congr 1
        omega
      crun [hb, hb']
      have : ((s.session.dr : Int) - 1).toNat = s.session.dr - 1 := by omega
      rw [this]
      rfl
    · rw [if_neg (by simp [hd]; omega)]
      crun [hb]

theorem run_adr_handle_downlink : call H Src.prog L (k + 1) "adr_handle_downlink" [] ⟨enc s x, fs, w⟩ = .ok (.null, ⟨enc (adrHandleDownlink s) x, fs, w⟩) := by
  rw [call_fun H find_adr_handle_downlink]
  unfold Src.adr_handle_downlink adrHandleDownlink
  crun []
  rfl

end Uwan.C
