import Verif.Lemmas.Step
import Verif.Spec.LoRaWAN

/-! Bytes, counters, cipher and MIC of the model against the specification. -/

namespace Uwan
open Spec

theorem byteOf_eq (x : U32) (k : Nat) : byteOf x k = BitVec.ofNat 8 (x.toNat / 256 ^ k) := by
  apply BitVec.eq_of_toNat_eq
  simp only [byteOf, BitVec.toNat_setWidth, BitVec.toNat_ushiftRight, BitVec.toNat_ofNat, Nat.shiftRight_eq_div_pow]
  rw [show (256 : Nat) = 2 ^ 8 by rfl, ← Nat.pow_mul]

theorem leBytes4 (x : U32) : leBytes 4 x.toNat = [byteOf x 0, byteOf x 1, byteOf x 2, byteOf x 3] := by
  simp only [leBytes, byteOf_eq, Nat.div_div_eq_div_mul, Nat.pow_zero, Nat.div_one, Nat.reducePow, Nat.reduceMul]

theorem leBytes3 (x : U32) : leBytes 3 x.toNat = [byteOf x 0, byteOf x 1, byteOf x 2] := by
  simp only [leBytes, byteOf_eq, Nat.div_div_eq_div_mul, Nat.pow_zero, Nat.div_one, Nat.reducePow, Nat.reduceMul]

theorem leBytes2 (x : U32) : leBytes 2 x.toNat = [byteOf x 0, byteOf x 1] := by
  simp only [leBytes, byteOf_eq, Nat.pow_zero, Nat.div_one, Nat.reducePow]

theorem or_eq_add {x y n : Nat} (h : x < 2 ^ n) : x ||| y * 2 ^ n = x + y * 2 ^ n := by
  rw [Nat.mul_comm, Nat.or_comm, Nat.add_comm, Nat.two_pow_add_eq_or_of_lt h]

theorem or16_toNat (a b : Byte) : (or16 a b).toNat = leNat [a, b] := by
  have ha := a.isLt; have hb := b.isLt
  simp only [or16, BitVec.toNat_or, BitVec.toNat_setWidth, BitVec.toNat_shiftLeft, leNat, Nat.shiftLeft_eq]
  rw [Nat.mod_eq_of_lt (by omega : a.toNat < 2 ^ 16), Nat.mod_eq_of_lt (by omega : b.toNat < 2 ^ 16),
    Nat.mod_eq_of_lt (by omega), or_eq_add (by omega)]
  omega

theorem or24_toNat (a b c : Byte) : (or24 a b c).toNat = leNat [a, b, c] := by
  have ha := a.isLt; have hb := b.isLt; have hc := c.isLt
  simp only [or24, BitVec.toNat_or, BitVec.toNat_setWidth, BitVec.toNat_shiftLeft, leNat, Nat.shiftLeft_eq]
  rw [Nat.mod_eq_of_lt (by omega : a.toNat < 2 ^ 32), Nat.mod_eq_of_lt (by omega : b.toNat < 2 ^ 32),
    Nat.mod_eq_of_lt (by omega : c.toNat < 2 ^ 32),
    Nat.mod_eq_of_lt (by omega : b.toNat * 2 ^ 8 < 2 ^ 32), Nat.mod_eq_of_lt (by omega : c.toNat * 2 ^ 16 < 2 ^ 32),
    or_eq_add (n := 8) (by omega), or_eq_add (n := 16) (by omega)]
  omega

theorem or32_toNat (a b c d : Byte) : (or32 a b c d).toNat = leNat [a, b, c, d] := by
  have ha := a.isLt; have hb := b.isLt; have hc := c.isLt; have hd := d.isLt
  simp only [or32, BitVec.toNat_or, BitVec.toNat_setWidth, BitVec.toNat_shiftLeft, leNat, Nat.shiftLeft_eq]
  rw [Nat.mod_eq_of_lt (by omega : a.toNat < 2 ^ 32), Nat.mod_eq_of_lt (by omega : b.toNat < 2 ^ 32),
    Nat.mod_eq_of_lt (by omega : c.toNat < 2 ^ 32), Nat.mod_eq_of_lt (by omega : d.toNat < 2 ^ 32),
    Nat.mod_eq_of_lt (by omega : b.toNat * 2 ^ 8 < 2 ^ 32), Nat.mod_eq_of_lt (by omega : c.toNat * 2 ^ 16 < 2 ^ 32),
    Nat.mod_eq_of_lt (by omega : d.toNat * 2 ^ 24 < 2 ^ 32),
    or_eq_add (n := 8) (by omega), or_eq_add (n := 16) (by omega), or_eq_add (n := 24) (by omega)]
  omega

theorem leNat_lt (l : Bytes) : leNat l < 256 ^ l.length := by
  induction l with
  | nil => simp [leNat]
  | cons b l ih => have := b.isLt; simp only [leNat, List.length_cons, Nat.pow_succ]; omega

theorem leNat_leBytes (n x : Nat) : leNat (leBytes n x) = x % 256 ^ n := by
  induction n generalizing x with
  | zero => simp [leBytes, leNat, Nat.mod_one]
  | succ n ih =>
    simp only [leBytes, leNat, ih, BitVec.toNat_ofNat]
    rw [Nat.pow_succ 256 n, Nat.mul_comm (256 ^ n) 256, Nat.mod_mul]

theorem leBytes_length (n x : Nat) : (leBytes n x).length = n := by
  induction n generalizing x with
  | zero => rfl
  | succ n ih => simp [leBytes, ih]

/-- Vectors are equal when their lists are. -/
theorem block_ext {a b : Block} (h : a.toList = b.toList) : a = b := by
  apply Vector.toArray_inj.mp
  apply Array.toList_inj.mp
  exact h

theorem blockOf_toList {l : Bytes} (h : l.length = 16) : (blockOf l).toList = l := by
  apply List.ext_getElem
  · simp [h]
  · intro i h1 h2
    simp [blockOf, h2]

theorem blockOf_of_toList (b : Block) : blockOf b.toList = b :=
  block_ext (blockOf_toList (by simp))

theorem aBlock_eq (dir : Byte) (addr fcnt : U32) (i : Nat) :
    aBlock dir addr fcnt (BitVec.ofNat 8 i) = blockA dir.toNat addr.toNat fcnt.toNat i := by
  apply block_ext
  rw [blockA, blockOf_toList (by simp [leBytes_length]), leBytes4, leBytes4]
  simp [aBlock]

theorem b0Block_eq (dir : Byte) (addr fcnt : U32) (n : Nat) :
    (b0Block dir addr fcnt (BitVec.ofNat 8 n)).toList = bytesB0 dir.toNat addr.toNat fcnt.toNat n := by
  rw [bytesB0, leBytes4, leBytes4]
  simp [b0Block]

/-- The counter used in a direction. -/
def Session.cnt (ss : Session) (dir : Byte) : U32 := if dir ≠ 0 then ss.fCntDown else ss.fCntUp

theorem calcMic_eq (E : Env) (ss : Session) (msg : Bytes) (key : Block) (dir : Byte) :
    (calcMic E ss msg key dir true).1 = dataMic E key dir.toNat ss.devAddr.toNat (ss.cnt dir).toNat msg := by
  simp only [calcMic, dataMic, ↓reduceIte, b0Block_eq]; rfl

theorem mapIdx_take_drop (l : Bytes) (f : Nat → Byte → Byte) :
    l.mapIdx f = (l.take 16).mapIdx f ++ (l.drop 16).mapIdx (fun k b => f (k + 16) b) := by
  have e := congrArg (List.mapIdx f) (List.take_append_drop 16 l)
  rw [← e]
  by_cases h : l.length ≤ 16
  · have : l.drop 16 = [] := by simp [h]
    simp [this]
  · rw [List.mapIdx_append]
    have : (l.take 16).length = 16 := by simp; omega
    rw [this]

/-- Byte `k` of the key stream when the first block has number `i`. -/
def ksByte (E : Env) (key : Block) (dir addr cnt i k : Nat) : Byte :=
  (E.aes key (blockA dir addr cnt (k / 16 + i)))[k % 16]'(Nat.mod_lt _ (by decide))

theorem encLoop_cons (E : Env) (key : Block) (dir : Byte) (addr fcnt : U32) (n i : Nat) (l : Bytes) (h : l ≠ []) :
    (encLoop (E.aes key) dir addr fcnt (n + 1) (BitVec.ofNat 8 i) l).1 =
      List.zipWith (· ^^^ ·) (l.take 16) (E.aes key (blockA dir.toNat addr.toNat fcnt.toNat i)).toList ++
      (encLoop (E.aes key) dir addr fcnt n (BitVec.ofNat 8 (i + 1)) (l.drop 16)).1 := by
  cases l with
  | nil => exact absurd rfl h
  | cons b l =>
    have e : (BitVec.ofNat 8 i : Byte) + 1 = BitVec.ofNat 8 (i + 1) := by
      apply BitVec.eq_of_toNat_eq; simp
    rw [← e, ← aBlock_eq]; rfl

theorem encLoop_eq (E : Env) (key : Block) (dir : Byte) (addr fcnt : U32) (n i : Nat) (l : Bytes) (h : l.length ≤ n) :
    (encLoop (E.aes key) dir addr fcnt n (BitVec.ofNat 8 i) l).1 =
      l.mapIdx fun k b => b ^^^ ksByte E key dir.toNat addr.toNat fcnt.toNat i k := by
  induction n generalizing i l with
  | zero =>
    have : l = [] := by simpa using h
    subst this; rfl
  | succ n ih =>
    by_cases hl : l = []
    · subst hl; rfl
    rw [encLoop_cons E key dir addr fcnt n i l hl, ih (i + 1) (l.drop 16) (by
      have := List.length_pos_iff.mpr hl
      rw [List.length_drop]; omega), mapIdx_take_drop l]
    have hA : List.zipWith (· ^^^ ·) (l.take 16) (E.aes key (blockA dir.toNat addr.toNat fcnt.toNat i)).toList =
        (l.take 16).mapIdx (fun k b => b ^^^ ksByte E key dir.toNat addr.toNat fcnt.toNat i k) := by
      apply List.ext_getElem
      · simp
      · intro k h1 h2
        have hk : k < 16 := by simp at h1; omega
        have e1 : k / 16 + i = i := by omega
        have e2 : k % 16 = k := Nat.mod_eq_of_lt hk
        simp only [List.getElem_zipWith, List.getElem_mapIdx, ksByte, e1, e2, Vector.getElem_toList]
    have hB : (fun (k : Nat) (b : Byte) => b ^^^ ksByte E key dir.toNat addr.toNat fcnt.toNat (i + 1) k) =
        (fun (k : Nat) (b : Byte) => b ^^^ ksByte E key dir.toNat addr.toNat fcnt.toNat i (k + 16)) := by
      funext k b
      have e1 : k / 16 + (i + 1) = (k + 16) / 16 + i := by omega
      have e2 : k % 16 = (k + 16) % 16 := by omega
      simp only [ksByte, e1, e2]
    rw [hA, hB]

theorem encryptPayload_eq (E : Env) (ss : Session) (buf : Bytes) (key : Block) (dir : Byte) :
    (encryptPayload E ss buf key dir).1 = crypt E key dir.toNat ss.devAddr.toNat (ss.cnt dir).toNat buf :=
  encLoop_eq E key dir ss.devAddr (ss.cnt dir) buf.length 1 buf (Nat.le_refl _)

theorem crypt_length (E : Env) (key : Block) (dir addr cnt : Nat) (l : Bytes) :
    (crypt E key dir addr cnt l).length = l.length := by simp [crypt]

theorem crypt_crypt (E : Env) (key : Block) (dir addr cnt : Nat) (l : Bytes) :
    crypt E key dir addr cnt (crypt E key dir addr cnt l) = l := by
  apply List.ext_getElem
  · simp [crypt]
  · intro i h1 h2
    simp only [crypt, List.getElem_mapIdx]
    rw [BitVec.xor_assoc, BitVec.xor_self, BitVec.xor_zero]

theorem deriveSessionKey_eq (E : Env) (key : Block) (t : Byte) (n i d : U32) :
    (deriveSessionKey E key t n i d).1 = sessionKey E key t.toNat n.toNat i.toNat d.toNat := by
  unfold deriveSessionKey sessionKey
  simp only
  congr 1
  apply block_ext
  rw [blockOf_toList (by simp [leBytes_length]), leBytes3, leBytes3, leBytes2]
  simp

end Uwan
