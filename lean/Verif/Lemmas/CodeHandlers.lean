import Verif.Lemmas.CodeHost

/-! # `adr_handle_link_req` and the command handlers of `mac.c` -/

namespace Uwan.C

@[csem] theorem orLit_0_1 : ofBits .i32 (bits 0 ||| bits 1) = 1 := by decide
@[csem] theorem orLit_0_2 : ofBits .i32 (bits 0 ||| bits 2) = 2 := by decide
@[csem] theorem orLit_0_4 : ofBits .i32 (bits 0 ||| bits 4) = 4 := by decide
@[csem] theorem orLit_1_1 : ofBits .i32 (bits 1 ||| bits 1) = 1 := by decide
@[csem] theorem orLit_1_2 : ofBits .i32 (bits 1 ||| bits 2) = 3 := by decide
@[csem] theorem orLit_1_4 : ofBits .i32 (bits 1 ||| bits 4) = 5 := by decide
@[csem] theorem orLit_2_1 : ofBits .i32 (bits 2 ||| bits 1) = 3 := by decide
@[csem] theorem orLit_2_2 : ofBits .i32 (bits 2 ||| bits 2) = 2 := by decide
@[csem] theorem orLit_2_4 : ofBits .i32 (bits 2 ||| bits 4) = 6 := by decide
@[csem] theorem orLit_3_1 : ofBits .i32 (bits 3 ||| bits 1) = 3 := by decide
@[csem] theorem orLit_3_2 : ofBits .i32 (bits 3 ||| bits 2) = 3 := by decide
@[csem] theorem orLit_3_4 : ofBits .i32 (bits 3 ||| bits 4) = 7 := by decide
@[csem] theorem orLit_4_1 : ofBits .i32 (bits 4 ||| bits 1) = 5 := by decide
@[csem] theorem orLit_4_2 : ofBits .i32 (bits 4 ||| bits 2) = 6 := by decide
@[csem] theorem orLit_4_4 : ofBits .i32 (bits 4 ||| bits 4) = 4 := by decide
@[csem] theorem orLit_5_1 : ofBits .i32 (bits 5 ||| bits 1) = 5 := by decide
@[csem] theorem orLit_5_2 : ofBits .i32 (bits 5 ||| bits 2) = 7 := by decide
@[csem] theorem orLit_5_4 : ofBits .i32 (bits 5 ||| bits 4) = 5 := by decide
@[csem] theorem orLit_6_1 : ofBits .i32 (bits 6 ||| bits 1) = 7 := by decide
@[csem] theorem orLit_6_2 : ofBits .i32 (bits 6 ||| bits 2) = 6 := by decide
@[csem] theorem orLit_6_4 : ofBits .i32 (bits 6 ||| bits 4) = 6 := by decide
@[csem] theorem orLit_7_1 : ofBits .i32 (bits 7 ||| bits 1) = 7 := by decide
@[csem] theorem orLit_7_2 : ofBits .i32 (bits 7 ||| bits 2) = 7 := by decide
@[csem] theorem orLit_7_4 : ofBits .i32 (bits 7 ||| bits 4) = 7 := by decide

@[csem] theorem ofInt8_0 : BitVec.ofInt 8 0 = (0 : Byte) := by decide
@[csem] theorem ofInt8_1 : BitVec.ofInt 8 1 = (1 : Byte) := by decide
@[csem] theorem ofInt8_2 : BitVec.ofInt 8 2 = (2 : Byte) := by decide
@[csem] theorem ofInt8_3 : BitVec.ofInt 8 3 = (3 : Byte) := by decide
@[csem] theorem ofInt8_4 : BitVec.ofInt 8 4 = (4 : Byte) := by decide
@[csem] theorem ofInt8_5 : BitVec.ofInt 8 5 = (5 : Byte) := by decide
@[csem] theorem ofInt8_6 : BitVec.ofInt 8 6 = (6 : Byte) := by decide
@[csem] theorem ofInt8_7 : BitVec.ofInt 8 7 = (7 : Byte) := by decide
@[csem] theorem ofInt8_8 : BitVec.ofInt 8 8 = (8 : Byte) := by decide
@[csem] theorem ofInt8_9 : BitVec.ofInt 8 9 = (9 : Byte) := by decide
@[csem] theorem ofInt8_10 : BitVec.ofInt 8 10 = (10 : Byte) := by decide
@[csem] theorem ofInt8_11 : BitVec.ofInt 8 11 = (11 : Byte) := by decide
@[csem] theorem ofInt8_12 : BitVec.ofInt 8 12 = (12 : Byte) := by decide
@[csem] theorem ofInt8_13 : BitVec.ofInt 8 13 = (13 : Byte) := by decide
@[csem] theorem ofInt8_255 : BitVec.ofInt 8 255 = (255 : Byte) := by decide

section
variable {ω : Type} (H : Host ω) (L k : Nat) (s : St) (x : Extra) (f : Objs) (fs : List Objs) (w : ω) (t t' : Ty)

theorem getObj_below (g f' : Objs) (o : String) : getObj (⟨g, f' :: f :: fs, w⟩ : Mem ω) (some fs.length) o = f.get o := by
  unfold getObj frameAt
  simp only [List.length_cons]
  rw [if_pos (by omega)]
  have : fs.length + 1 + 1 - 1 - fs.length = 1 := by omega
  rw [this]
  rfl

/-- A local array of the caller. -/
theorem behind_top (o : String) (l : Bytes) (h : f.get o = some (l.map byteVal)) : Behind (f :: fs) w (.ptr ⟨some fs.length, o, 0⟩) l := by
  refine .inr ⟨_, rfl, ?_⟩
  intro g f'
  have := loads_bytes (m := ⟨g, f' :: f :: fs, w⟩) (fr := some fs.length) (o := o) (l := l) (off := 0) (n := l.length) (by rw [getObj_below]; exact h) (by omega)
  simpa using this

/-- `mac_enqueue` with one or two bytes of the local variable `o` of the caller, which holds `l`. -/
def enqAt (cid : Int) (o : String) (n : Int) (l : Option (List Val)) : Except Fault (Val × Mem ω) :=
  match l with
  | some [.int .u8 b] => if n = 1 ∧ 0 ≤ b ∧ b < 256 ∧ s.mac.queue.length + x.macTail.length = 15 ∧ 0 ≤ cid ∧ cid < 256 then
      .ok (boolVal (s.enqueue (BitVec.ofInt 8 cid) [BitVec.ofInt 8 b]).1, ⟨enc (s.enqueue (BitVec.ofInt 8 cid) [BitVec.ofInt 8 b]).2 (x.eat 2), f :: fs, w⟩)
    else call H Src.prog L (k + 2) "mac_enqueue" [.int t cid, .ptr ⟨some fs.length, o, 0⟩, .int t' n] ⟨enc s x, f :: fs, w⟩
  | some [.int .u8 a, .int .u8 b] => if n = 2 ∧ 0 ≤ a ∧ a < 256 ∧ 0 ≤ b ∧ b < 256 ∧ s.mac.queue.length + x.macTail.length = 15 ∧ 0 ≤ cid ∧ cid < 256 then
      .ok (boolVal (s.enqueue (BitVec.ofInt 8 cid) [BitVec.ofInt 8 a, BitVec.ofInt 8 b]).1,
        ⟨enc (s.enqueue (BitVec.ofInt 8 cid) [BitVec.ofInt 8 a, BitVec.ofInt 8 b]).2 (x.eat 3), f :: fs, w⟩)
    else call H Src.prog L (k + 2) "mac_enqueue" [.int t cid, .ptr ⟨some fs.length, o, 0⟩, .int t' n] ⟨enc s x, f :: fs, w⟩
  | _ => call H Src.prog L (k + 2) "mac_enqueue" [.int t cid, .ptr ⟨some fs.length, o, 0⟩, .int t' n] ⟨enc s x, f :: fs, w⟩

theorem enqueue_at (cid : Int) (o : String) (n : Int) :
    call H Src.prog L (k + 2) "mac_enqueue" [.int t cid, .ptr ⟨some fs.length, o, 0⟩, .int t' n] ⟨enc s x, f :: fs, w⟩ = enqAt H L k s x f fs w t t' cid o n (f.get o) := by
  unfold enqAt
  split
  · next b hb =>
    split
    · next h =>
      obtain ⟨hn, h0, h1, hr, hc0, hc1⟩ := h
      exact run_mac_enqueue H L k s x (f :: fs) w t t' cid hc0 hc1 [BitVec.ofInt 8 b] _ n hn (by simp)
        (behind_top f fs w o _ (by rw [hb]; simp only [List.map_cons, List.map_nil]; rw [byteVal_ofInt b h0 h1])) hr
    · rfl
  · next a b hb =>
    split
    · next h =>
      obtain ⟨hn, ha0, ha1, h0, h1, hr, hc0, hc1⟩ := h
      exact run_mac_enqueue H L k s x (f :: fs) w t t' cid hc0 hc1 [BitVec.ofInt 8 a, BitVec.ofInt 8 b] _ n hn (by simp)
        (behind_top f fs w o _ (by rw [hb]; simp only [List.map_cons, List.map_nil]; rw [byteVal_ofInt b h0 h1, byteVal_ofInt a ha0 ha1])) hr
    · rfl
  · rfl

theorem enqAt_one (cid : Int) (o : String) (b : Int) (h0 : 0 ≤ b) (h1 : b < 256) (hr : s.mac.queue.length + x.macTail.length = 15) (hc0 : 0 ≤ cid) (hc1 : cid < 256) :
    enqAt H L k s x f fs w t t' cid o 1 (some [.int .u8 b]) =
    .ok (boolVal (s.enqueue (BitVec.ofInt 8 cid) [BitVec.ofInt 8 b]).1, ⟨enc (s.enqueue (BitVec.ofInt 8 cid) [BitVec.ofInt 8 b]).2 (x.eat 2), f :: fs, w⟩) := by
  unfold enqAt
  exact if_pos ⟨rfl, h0, h1, hr, hc0, hc1⟩

theorem enqAt_two (cid : Int) (o : String) (a b : Int) (ha0 : 0 ≤ a) (ha1 : a < 256) (h0 : 0 ≤ b) (h1 : b < 256) (hr : s.mac.queue.length + x.macTail.length = 15) (hc0 : 0 ≤ cid) (hc1 : cid < 256) :
    enqAt H L k s x f fs w t t' cid o 2 (some [.int .u8 a, .int .u8 b]) =
    .ok (boolVal (s.enqueue (BitVec.ofInt 8 cid) [BitVec.ofInt 8 a, BitVec.ofInt 8 b]).1,
      ⟨enc (s.enqueue (BitVec.ofInt 8 cid) [BitVec.ofInt 8 a, BitVec.ofInt 8 b]).2 (x.eat 3), f :: fs, w⟩) := by
  unfold enqAt
  exact if_pos ⟨rfl, ha0, ha1, h0, h1, hr, hc0, hc1⟩

theorem mask_dry (c : Chan) (m : U16) (n : Nat) : (handleAdrChMask c m n true).2 = c := by
  unfold handleAdrChMask
  split
  · rfl
  · split <;> rfl

theorem mask_bound (c : Chan) (m : U16) (n : Nat) (h : c.maxCount < 256) : (handleAdrChMask c m n false).2.maxCount < 256 := by
  unfold handleAdrChMask
  split
  · exact apply_bound c m h 16
  · split
    · exact enable_all_bound c h
    · exact h

theorem region_mask (r : Region) (hr : s.region = some r) : ∃ nm, regionVal s.region = .ptr ⟨none, nm, 0⟩ ∧
    ∀ s x, (enc s x).get (nm ++ ".handle_adr_ch_mask") = some [.fn "region_86x_handle_adr_ch_mask"] := by
  rw [hr]
  cases r
  · exact ⟨"region_eu868", rfl, fun s x => get_region_eu868_handle_adr_ch_mask s x⟩
  · exact ⟨"region_ru864", rfl, fun s x => get_region_ru864_handle_adr_ch_mask s x⟩

theorem nbTrans_keeps (n : Byte) : (linkAdrNbTrans s n).region = s.region ∧ (linkAdrNbTrans s n).chan = s.chan ∧ (linkAdrNbTrans s n).mac = s.mac := by
  unfold linkAdrNbTrans setNbTransInt
  split <;> exact ⟨rfl, rfl, rfl⟩

theorem txPower_keeps (n : Byte) : (setTxPowerInt s n).2.region = s.region ∧ (setTxPowerInt s n).2.chan = s.chan ∧ (setTxPowerInt s n).2.mac = s.mac := by
  unfold setTxPowerInt
  split <;> exact ⟨rfl, rfl, rfl⟩

theorem linkReq_no (a : Byte) (m : U16) (d st : Byte) (h : linkAdrStatus s a m d = st) (h7 : st ≠ 7) : adrHandleLinkReq s a m d = s.enqueue 0x03 [st] := by
  unfold adrHandleLinkReq
  rw [h]
  simp only [h7, if_false]

theorem linkReq_yes (a : Byte) (m : U16) (d : Byte) (h : linkAdrStatus s a m d = 7) : adrHandleLinkReq s a m d = (linkAdrApply s a m d).enqueue 0x03 [7] := by
  unfold adrHandleLinkReq
  rw [h]
  simp only [if_true]

set_option maxHeartbeats 2000000 in
theorem run_adr_handle_link_req (hL : 16 < L) (r : Region) (hr : s.region = some r) (a : Byte) (m : U16) (d : Byte) (t'' : Ty) (hm : s.chan.maxCount < 256)
    (hq : s.mac.queue.length + x.macTail.length = 15) :
    call H Src.prog L (k + 4) "adr_handle_link_req" [.int t a.toNat, .int t' m.toNat, .int t'' d.toNat] ⟨enc s x, fs, w⟩ =
    .ok (boolVal (adrHandleLinkReq s a m d).1, ⟨enc (adrHandleLinkReq s a m d).2 (x.eat 2), fs, w⟩) := by
  rw [call_fun H find_adr_handle_link_req]
  have ha := a.isLt
  have hm' := m.isLt
  have hd := d.isLt
  have h1 := ((a >>> 4) &&& 0xf).isLt
  have h2 := (a &&& 0xf).isLt
  have h3 := (d &&& 0xf).isLt
  have h4 := ((d >>> 4) &&& 4).isLt
  have hdry : ∀ k fs t t', call H Src.prog L (k + 2) "region_86x_handle_adr_ch_mask" [.int t m.toNat, .int t' (((d >>> 4) &&& 4).toNat : Int), .int .i32 1] ⟨enc s x, fs, w⟩ =
      .ok (boolVal (handleAdrChMask s.chan m ((d >>> 4) &&& 4).toNat true).1, ⟨enc s x, fs, w⟩) := by
    intro k fs t t'
    have := run_handle_adr_ch_mask H L k s x fs w t t' hL m ((d >>> 4) &&& 4).toNat (by omega) (.int .i32 1) true rfl hm
    rw [mask_dry] at this
    exact this
  obtain ⟨nm, hreg, hget⟩ := region_mask s r hr
  have hst : linkAdrStatus s a m d = linkAdrStatus s a m d := rfl
  conv at hst => rhs; unfold linkAdrStatus linkAdrCntl
  unfold Src.adr_handle_link_req
  cases hv1 : isValidDr ((a >>> 4) &&& 0xf).toNat <;> cases hv2 : (handleAdrChMask s.chan m ((d >>> 4) &&& 4).toNat true).1 <;> cases hv3 : isValidTxPower (a &&& 0xf) <;>
    rw [hv1, hv2, hv3] at hst
  case true.true.true =>
    rw [linkReq_yes s a m d hst]
    unfold linkAdrApply linkAdrCntl
    have hs1 : ∀ (S : St) k fs, call H Src.prog L (k + 2) "set_tx_power" [.int .u8 ((a &&& 0xf).toNat : Int)] ⟨enc S x, fs, w⟩ =
        .ok (boolVal (setTxPowerInt S (a &&& 0xf)).1, ⟨enc (setTxPowerInt S (a &&& 0xf)).2 x, fs, w⟩) := by
      intro S k fs
      have := run_set_tx_power H L k S x fs w .u8 (a &&& 0xf).toNat (by omega) (by omega)
      rwa [ofInt8_toNat] at this
    have hs0 : ∀ k fs, call H Src.prog L (k + 1) "set_nb_trans" [.int .u8 ((d &&& 0xf).toNat : Int)] ⟨enc s x, fs, w⟩ =
        .ok (boolVal (setNbTransInt s (d &&& 0xf)).1, ⟨enc (setNbTransInt s (d &&& 0xf)).2 x, fs, w⟩) := by
      intro k fs
      have := run_set_nb_trans H L k s x fs w .u8 (d &&& 0xf).toNat (by omega) (by omega)
      rwa [ofInt8_toNat] at this
    obtain ⟨hk1, hk2, hk3⟩ := nbTrans_keeps s (d &&& 0xf)
    obtain ⟨hk4, hk5, hk6⟩ := txPower_keeps (linkAdrNbTrans s (d &&& 0xf)) (a &&& 0xf)
    generalize hS1 : linkAdrNbTrans s (d &&& 0xf) = S1 at *
    have hs2 := hs1 S1
    generalize hS2 : (setTxPowerInt S1 (a &&& 0xf)).2 = S2 at *
    have hreg2 : regionVal S2.region = .ptr ⟨none, nm, 0⟩ := by rw [hk4, hk1]; exact hreg
    have hbound : S2.chan.maxCount < 256 := by rw [hk5, hk2]; exact hm
    have hq2 : S2.mac.queue.length + x.macTail.length = 15 := by rw [hk6, hk3]; exact hq
    have hap := fun k fs t t' => run_handle_adr_ch_mask H L k { S2 with session := { S2.session with dr := ((a >>> 4) &&& 0xf).toNat } } x fs w t t' hL m ((d >>> 4) &&& 4).toNat (by omega)
      (.int .i32 0) false rfl hbound
    cases hnb : (setNbTransInt s (d &&& 0xf)).1
    · have e : resetNbTrans (setNbTransInt s (d &&& 0xf)).2 = S1 := by
        rw [← hS1]
        unfold linkAdrNbTrans
        simp only [hnb, Bool.false_eq_true, if_false]
      crun [hreg, hreg2, hget, and15_conv, and15, run_is_valid_dr, run_is_valid_tx_power, hv1, hv2, hv3, hdry, hs0, hnb, run_reset_nb_trans, e, hs2, hS2, hap, enqueue_at, enqAt_one]
    · have e : (setNbTransInt s (d &&& 0xf)).2 = S1 := by
        rw [← hS1]
        unfold linkAdrNbTrans
        simp only [hnb, if_true]
      crun [hreg, hreg2, hget, and15_conv, and15, run_is_valid_dr, run_is_valid_tx_power, hv1, hv2, hv3, hdry, hs0, hnb, e, hs2, hS2, hap, enqueue_at, enqAt_one]
  case false.false.false =>
    rw [linkReq_no s a m d 0 hst (by decide)]
    crun [hreg, hget, and15_conv, and15, run_is_valid_dr, run_is_valid_tx_power, hv1, hv2, hv3, hdry, enqueue_at, enqAt_one]
  case false.false.true =>
    rw [linkReq_no s a m d 4 hst (by decide)]
    crun [hreg, hget, and15_conv, and15, run_is_valid_dr, run_is_valid_tx_power, hv1, hv2, hv3, hdry, enqueue_at, enqAt_one]
  case false.true.false =>
    rw [linkReq_no s a m d 1 hst (by decide)]
    crun [hreg, hget, and15_conv, and15, run_is_valid_dr, run_is_valid_tx_power, hv1, hv2, hv3, hdry, enqueue_at, enqAt_one]
  case false.true.true =>
    rw [linkReq_no s a m d 5 hst (by decide)]
    crun [hreg, hget, and15_conv, and15, run_is_valid_dr, run_is_valid_tx_power, hv1, hv2, hv3, hdry, enqueue_at, enqAt_one]
  case true.false.false =>
    rw [linkReq_no s a m d 2 hst (by decide)]
    crun [hreg, hget, and15_conv, and15, run_is_valid_dr, run_is_valid_tx_power, hv1, hv2, hv3, hdry, enqueue_at, enqAt_one]
  case true.false.true =>
    rw [linkReq_no s a m d 6 hst (by decide)]
    crun [hreg, hget, and15_conv, and15, run_is_valid_dr, run_is_valid_tx_power, hv1, hv2, hv3, hdry, enqueue_at, enqAt_one]
  case true.true.false =>
    rw [linkReq_no s a m d 3 hst (by decide)]
    crun [hreg, hget, and15_conv, and15, run_is_valid_dr, run_is_valid_tx_power, hv1, hv2, hv3, hdry, enqueue_at, enqAt_one]

end
end Uwan.C
