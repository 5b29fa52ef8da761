import Verif.Lemmas.Bridge
import Verif.Lemmas.Hist

/-! The specification's frame parser on frames of known layout. -/

namespace Uwan
open Spec

/-- Bit `k` of a byte as an arithmetic condition. -/
def bitN (b : Byte) (k : Nat) : Bool := b.toNat / 2 ^ k % 2 = 1

theorem parse_layout (m a0 a1 a2 a3 fc c0 c1 : Byte) (fopts tail mic : Bytes) (hf : fc.toNat % 16 = fopts.length)
    (hm : mic.length = 4) :
    Spec.parse (m :: a0 :: a1 :: a2 :: a3 :: fc :: c0 :: c1 :: (fopts ++ tail ++ mic)) =
      some
        { mtype := m.toNat / 32
          rfu := m.toNat / 4 % 8
          major := m.toNat % 4
          devAddr := leNat [a0, a1, a2, a3]
          adr := fc.toNat / 128 % 2 = 1
          adrAckReq := fc.toNat / 64 % 2 = 1
          ack := fc.toNat / 32 % 2 = 1
          fPending := fc.toNat / 16 % 2 = 1
          fCnt := leNat [c0, c1]
          fOpts := fopts
          port := tail.head?.map (·.toNat)
          payload := tail.drop 1
          mic := mic } := by
  unfold Spec.parse
  have hlen : (m :: a0 :: a1 :: a2 :: a3 :: fc :: c0 :: c1 :: (fopts ++ tail ++ mic)).length =
      12 + fopts.length + tail.length := by simp [hm]; omega
  have e1 : leNat (((m :: a0 :: a1 :: a2 :: a3 :: fc :: c0 :: c1 :: (fopts ++ tail ++ mic)).drop 5).take 1) = fc.toNat := by
    simp [leNat]
  have e0 : leNat ((m :: a0 :: a1 :: a2 :: a3 :: fc :: c0 :: c1 :: (fopts ++ tail ++ mic)).take 1) = m.toNat := by
    simp [leNat]
  simp only [e0, e1, hf, hlen]
  rw [if_neg (by omega)]
  have e2 : (m :: a0 :: a1 :: a2 :: a3 :: fc :: c0 :: c1 :: (fopts ++ tail ++ mic)).drop (8 + fopts.length) = tail ++ mic := by
    rw [show 8 + fopts.length = fopts.length + 8 by omega]
    simp only [List.drop_succ_cons]
    rw [List.append_assoc, List.drop_left]
  have e3 : (12 + fopts.length + tail.length) - 12 - fopts.length = tail.length := by omega
  have e4 : (m :: a0 :: a1 :: a2 :: a3 :: fc :: c0 :: c1 :: (fopts ++ tail ++ mic)).drop
      (12 + fopts.length + tail.length - 4) = mic := by
    rw [show 12 + fopts.length + tail.length - 4 = (fopts ++ tail).length + 8 by simp; omega]
    simp only [List.drop_succ_cons]
    rw [List.drop_left]
  have e5 : ((m :: a0 :: a1 :: a2 :: a3 :: fc :: c0 :: c1 :: (fopts ++ tail ++ mic)).drop 8).take fopts.length = fopts := by
    simp only [List.drop_succ_cons, List.drop_zero]
    rw [List.append_assoc, List.take_left]
  simp only [e2, e3, e4, e5, List.take_left]
  rfl

theorem signed_append (l mic : Bytes) (h : mic.length = 4) : signed (l ++ mic) = l := by
  unfold signed
  rw [show (l ++ mic).length - 4 = l.length by simp [h]]
  exact List.take_left

/-! ### Uplinks -/

/-- The FCtrl byte of an uplink, arithmetically. -/
theorem fCtrl_spec (s : St) (h : s.mac.queue.length ≤ 15) :
    (fCtrl s).toNat % 16 = s.mac.queue.length ∧
    ((fCtrl s).toNat / 128 % 2 = 1 ↔ s.adr.enabled = true) ∧
    ((fCtrl s).toNat / 64 % 2 = 1 ↔ adrGetReqBit s = true) ∧
    ((fCtrl s).toNat / 32 % 2 = 1 ↔ s.session.ackRequired = true) ∧
    (fCtrl s).toNat / 16 % 2 = 0 := by
  unfold fCtrl
  generalize s.mac.queue.length = n at h
  generalize adrGetReqBit s = r
  generalize s.session.ackRequired = a
  generalize s.adr.enabled = e
  have hn : n < 16 := by omega
  have : ∀ n : Fin 16, ∀ e r a : Bool,
      (let c : Byte := if e then 0x80 else 0
       let c : Byte := if r then c ||| 0x40 else c
       let c : Byte := if a then c ||| 0x20 else c
       let v := (c ||| (BitVec.ofNat 8 n.val &&& 0xf)).toNat
       v % 16 = n.val ∧ (v / 128 % 2 = 1 ↔ e = true) ∧ (v / 64 % 2 = 1 ↔ r = true) ∧
        (v / 32 % 2 = 1 ↔ a = true) ∧ v / 16 % 2 = 0) := by decide +kernel
  exact this ⟨n, hn⟩ e r a

/-- Port and encrypted payload of an uplink. -/
def upTail (E : Env) (s : St) (port : Byte) (pld : Bytes) : Bytes :=
  if pld = [] then [] else port :: crypt E s.session.appSKey 0 s.session.devAddr.toNat s.session.fCntUp.toNat pld

theorem Session.cnt_up (ss : Session) : ss.cnt 0 = ss.fCntUp := by simp [Session.cnt]
theorem Session.cnt_down (ss : Session) : ss.cnt 1 = ss.fCntDown := by simp [Session.cnt]

theorem buildUplink_bytes (E : Env) (s : St) (h : s.mac.queue.length ≤ 15) (port : Byte) (pld : Bytes) (c : Bool) :
    ∃ msg mic, (buildUplink E s port pld c).1 = msg ++ mic ∧ mic.length = 4 ∧
      mic = dataMic E s.session.nwkSKey 0 s.session.devAddr.toNat s.session.fCntUp.toNat msg ∧
      msg = (if c then 0x80 else 0x40) :: byteOf s.session.devAddr 0 :: byteOf s.session.devAddr 1 ::
        byteOf s.session.devAddr 2 :: byteOf s.session.devAddr 3 :: fCtrl s :: byteOf s.session.fCntUp 0 ::
        byteOf s.session.fCntUp 1 :: (s.mac.queue ++ upTail E s port pld) := by
  unfold buildUplink
  simp only [macGetPayload_eq h]
  refine ⟨_, _, rfl, calcMic_length .., ?_, ?_⟩
  · rw [calcMic_eq, Session.cnt_up]; rfl
  · have em : ((if c then 4 else 2 : Byte) <<< 5) = if c then 0x80 else 0x40 := by cases c <;> rfl
    rw [em]
    by_cases hp : pld = []
    · subst hp; simp [upTail]
    · have : pld.length ≠ 0 := by simpa using hp
      simp only [if_pos this, upTail, if_neg hp, encryptPayload_eq, Session.cnt_up]
      simp

theorem leNat_byteOf4 (x : U32) : leNat [byteOf x 0, byteOf x 1, byteOf x 2, byteOf x 3] = x.toNat := by
  rw [← leBytes4, leNat_leBytes]
  exact Nat.mod_eq_of_lt x.isLt

theorem leNat_byteOf2 (x : U32) : leNat [byteOf x 0, byteOf x 1] = x.toNat % 65536 := by
  rw [← leBytes2, leNat_leBytes]

/-- What a parser reads in an uplink. -/
theorem parse_uplink (E : Env) (s : St) (h : s.mac.queue.length ≤ 15) (port : Byte) (pld : Bytes) (c : Bool) :
    ∃ f, Spec.parse (buildUplink E s port pld c).1 = some f ∧
      f.mtype = (if c then 4 else 2) ∧ f.rfu = 0 ∧ f.major = 0 ∧ f.devAddr = s.session.devAddr.toNat ∧
      f.adr = s.adr.enabled ∧ f.adrAckReq = adrGetReqBit s ∧ f.ack = s.session.ackRequired ∧ f.fPending = false ∧
      f.fCnt = s.session.fCntUp.toNat % 65536 ∧ f.fOpts = s.mac.queue ∧
      f.port = (if pld = [] then none else some port.toNat) ∧
      f.payload = crypt E s.session.appSKey 0 s.session.devAddr.toNat s.session.fCntUp.toNat pld ∧
      f.mic = dataMic E s.session.nwkSKey 0 s.session.devAddr.toNat s.session.fCntUp.toNat
        (signed (buildUplink E s port pld c).1) := by
  obtain ⟨msg, mic, e, hl, hm, hmsg⟩ := buildUplink_bytes E s h port pld c
  obtain ⟨f0, f1, f2, f3, f4⟩ := fCtrl_spec s h
  have key := parse_layout (if c then 0x80 else 0x40) (byteOf s.session.devAddr 0) (byteOf s.session.devAddr 1)
    (byteOf s.session.devAddr 2) (byteOf s.session.devAddr 3) (fCtrl s) (byteOf s.session.fCntUp 0)
    (byteOf s.session.fCntUp 1) s.mac.queue (upTail E s port pld) mic f0 hl
  have e' : (buildUplink E s port pld c).1 = (if c then 0x80 else 0x40) :: byteOf s.session.devAddr 0 ::
      byteOf s.session.devAddr 1 :: byteOf s.session.devAddr 2 :: byteOf s.session.devAddr 3 :: fCtrl s ::
      byteOf s.session.fCntUp 0 :: byteOf s.session.fCntUp 1 :: (s.mac.queue ++ upTail E s port pld ++ mic) := by
    rw [e, hmsg]; simp
  rw [e', key]
  refine ⟨_, rfl, ?_, ?_, ?_, leNat_byteOf4 _, ?_, ?_, ?_, ?_, leNat_byteOf2 _, rfl, ?_, ?_, ?_⟩
  · cases c <;> rfl
  · cases c <;> rfl
  · cases c <;> rfl
  · simp only [f1]; cases s.adr.enabled <;> simp
  · simp only [f2]; cases adrGetReqBit s <;> simp
  · simp only [f3]; cases s.session.ackRequired <;> simp
  · simp only [f4]; simp
  · by_cases hp : pld = [] <;> simp [upTail, hp]
  · by_cases hp : pld = []
    · subst hp; rfl
    · simp [upTail, hp]
  · rw [← e', e, signed_append _ _ hl]; exact hm

end Uwan
