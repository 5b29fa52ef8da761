import Verif.Lemmas.CodeBytes

/-! # Bytes, words and bits as C computes with them -/

namespace Uwan.C

theorem bits_ofBits_i32 (v : BitVec 32) : bits (ofBits .i32 v) = v := by
  unfold bits ofBits
  rw [if_neg (by decide), BitVec.ofInt_toInt]

theorem bits_ofBits_u32 (v : BitVec 32) : bits (ofBits .u32 v) = v := by
  unfold bits ofBits
  rw [if_pos rfl]
  simp

theorem bits_byte (b : Byte) : bits (b.toNat : Int) = b.setWidth 32 := by
  unfold bits
  apply BitVec.eq_of_toNat_eq
  simp

theorem bits_word (b : U16) : bits (b.toNat : Int) = b.setWidth 32 := by
  unfold bits
  apply BitVec.eq_of_toNat_eq
  simp

theorem bits_u32 (b : U32) : bits (b.toNat : Int) = b := by
  unfold bits
  simp

theorem bits_shl (b : Byte) (n : Nat) : bits ((b.toNat : Int) * 2 ^ n) = b.setWidth 32 <<< n := by
  unfold bits
  apply BitVec.eq_of_toNat_eq
  rw [BitVec.toNat_ofInt, BitVec.toNat_shiftLeft, Nat.shiftLeft_eq]
  have h : ((b.toNat : Int) * 2 ^ n) = ((b.toNat * 2 ^ n : Nat) : Int) := by simp
  rw [h]
  have := b.isLt
  have h2 : (b.setWidth 32).toNat = b.toNat := by simp; omega
  rw [h2]
  omega

theorem conv_u32_bits (v : BitVec 32) : Ty.u32.conv (ofBits .i32 v) = v.toNat := by
  unfold ofBits Ty.conv
  rw [if_neg (by decide)]
  have := v.isLt
  simp only [BitVec.toInt]
  split <;> omega

theorem conv_u32_bits_u (v : BitVec 32) : Ty.u32.conv (ofBits .u32 v) = v.toNat := by
  unfold ofBits
  rw [if_pos rfl]
  have := v.isLt
  simp only [Ty.conv]
  omega

theorem operand_bits (v : BitVec 32) : Ty.u32.operand (ofBits .i32 v) = v.toNat := conv_u32_bits v

theorem ofBits_u32 (v : BitVec 32) : ofBits .u32 v = v.toNat := (rfl)

theorem ofBits_small (v : BitVec 32) (h : v.toNat < 2147483648) : ofBits .i32 v = v.toNat := by
  unfold ofBits
  rw [if_neg (by decide), BitVec.toInt]
  split <;> omega

theorem or16_toNat (a b : Byte) : Ty.u16.conv (ofBits .i32 (a.setWidth 32 ||| b.setWidth 32 <<< 8)) = (or16 a b).toNat := by
  have h : (a.setWidth 32 ||| b.setWidth 32 <<< 8) = (or16 a b).setWidth 32 := by
    unfold or16
    apply BitVec.eq_of_getLsbD_eq
    intro i hi
    simp only [BitVec.getLsbD_or, BitVec.getLsbD_setWidth, BitVec.getLsbD_shiftLeft]
    by_cases h16 : i < 16
    · simp [hi, h16]
      by_cases h8 : i < 8
      · simp [h8]
      · simp [h8]
        by_cases h : i - 8 < 8
        · have : i - 8 < 32 := by omega
          have h6 : i - 8 < 16 := by omega
          simp [this, h, h6]
        · rw [BitVec.getLsbD_of_ge b _ (by omega)]
          simp
    · rw [BitVec.getLsbD_of_ge a _ (by omega), BitVec.getLsbD_of_ge b _ (by omega)]
      simp [h16]
  have h2 := (or16 a b).isLt
  rw [h, ofBits_small _ (by simp; omega)]
  unfold Ty.conv
  simp
  omega

theorem or24_bits (a b c : Byte) : (a.setWidth 32 ||| b.setWidth 32 <<< 8 ||| c.setWidth 32 <<< 16 : BitVec 32) = or24 a b c := (rfl)
theorem or32_bits (a b c d : Byte) : (a.setWidth 32 ||| b.setWidth 32 <<< 8 ||| c.setWidth 32 <<< 16 ||| d.setWidth 32 <<< 24 : BitVec 32) = or32 a b c d := (rfl)

theorem or24_lt (a b c : Byte) : (or24 a b c).toNat < 16777216 := by
  have hl : ∀ i, 24 ≤ i → (or24 a b c).getLsbD i = false := by
    intro i hi
    unfold or24
    simp only [BitVec.getLsbD_or, BitVec.getLsbD_setWidth, BitVec.getLsbD_shiftLeft]
    rw [BitVec.getLsbD_of_ge a _ (by omega), BitVec.getLsbD_of_ge b _ (by omega), BitVec.getLsbD_of_ge c _ (by omega)]
    simp
  exact Nat.lt_pow_two_of_testBit _ (fun i hi => hl i hi)

theorem ofBits_or24 (a b c : Byte) : ofBits .i32 (or24 a b c) = (or24 a b c).toNat := ofBits_small _ (by have := or24_lt a b c; omega)

theorem mask_bit (c : U16) (i : Nat) (h : i < 16) : eqb (ofBits .i32 (bits (c.toNat : Int) &&& bits (2 ^ i))) 0 = !c.getLsbD i := by
  have h1 : bits ((2 : Int) ^ i) = BitVec.twoPow 32 i := by
    unfold bits
    apply BitVec.eq_of_toNat_eq
    rw [BitVec.toNat_twoPow, BitVec.toNat_ofInt]
    have : (2 : Int) ^ i = ((2 ^ i : Nat) : Int) := by simp
    rw [this]
    omega
  rw [bits_word, h1, BitVec.and_twoPow]
  have h2 : (c.setWidth 32).getLsbD i = c.getLsbD i := by
    rw [BitVec.getLsbD_setWidth]
    have : i < 32 := by omega
    simp [this]
  rw [h2]
  cases c.getLsbD i
  · rfl
  · have hp : (BitVec.twoPow 32 i).toNat = 2 ^ i := by
      rw [BitVec.toNat_twoPow, Nat.mod_eq_of_lt]
      exact Nat.pow_lt_pow_right (by omega) (by omega)
    have hle : 2 ^ i ≤ 2 ^ 15 := Nat.pow_le_pow_right (by omega) (by omega)
    have hpos : 0 < 2 ^ i := Nat.pow_pos (by omega)
    rw [if_pos rfl, ofBits_small _ (by omega), hp]
    unfold eqb
    simp only [decide_eq_false_iff_not, Bool.not_true]
    omega

theorem byte_facts : ∀ b : Fin 256,
    (Ty.u8.conv (ofBits .i32 (bits (((b.val : Nat) : Int) / 2 ^ 4) &&& bits 7)) = (((BitVec.ofNat 8 b.val >>> 4) &&& 7).toNat : Int)) ∧
    (Ty.u8.conv (ofBits .i32 (bits (((b.val : Nat) : Int) / 2 ^ 4) &&& bits 15)) = (((BitVec.ofNat 8 b.val >>> 4) &&& 0xf).toNat : Int)) ∧
    (Ty.u8.conv (ofBits .i32 (bits (((b.val : Nat) : Int) / 2 ^ 4) &&& bits 4)) = (((BitVec.ofNat 8 b.val >>> 4) &&& 4).toNat : Int)) ∧
    (Ty.u8.conv (ofBits .i32 (bits (((b.val : Nat) : Int) / 2 ^ 5) &&& bits 7)) = (((BitVec.ofNat 8 b.val >>> 5) &&& 7).toNat : Int)) ∧
    (Ty.u8.conv (ofBits .i32 (bits ((b.val : Nat) : Int) &&& bits 15)) = ((BitVec.ofNat 8 b.val &&& 0xf).toNat : Int)) ∧
    (ofBits .i32 (bits ((b.val : Nat) : Int) &&& bits 15) = ((BitVec.ofNat 8 b.val &&& 0xf).toNat : Int)) ∧
    (ofBits .i32 (bits ((b.val : Nat) : Int) &&& bits 3) = ((BitVec.ofNat 8 b.val &&& 3).toNat : Int)) ∧
    (ofBits .i32 (bits (((b.val : Nat) : Int) / 2 ^ 4) &&& bits 15) = (((BitVec.ofNat 8 b.val >>> 4) &&& 0xf).toNat : Int)) := by
  decide +kernel

section
variable (b : Byte)

theorem byte_fact : (Ty.u8.conv (ofBits .i32 (bits ((b.toNat : Int) / 2 ^ 4) &&& bits 7)) = (((b >>> 4) &&& 7).toNat : Int)) ∧
    (Ty.u8.conv (ofBits .i32 (bits ((b.toNat : Int) / 2 ^ 4) &&& bits 15)) = (((b >>> 4) &&& 0xf).toNat : Int)) ∧
    (Ty.u8.conv (ofBits .i32 (bits ((b.toNat : Int) / 2 ^ 4) &&& bits 4)) = (((b >>> 4) &&& 4).toNat : Int)) ∧
    (Ty.u8.conv (ofBits .i32 (bits ((b.toNat : Int) / 2 ^ 5) &&& bits 7)) = (((b >>> 5) &&& 7).toNat : Int)) ∧
    (Ty.u8.conv (ofBits .i32 (bits (b.toNat : Int) &&& bits 15)) = ((b &&& 0xf).toNat : Int)) ∧
    (ofBits .i32 (bits (b.toNat : Int) &&& bits 15) = ((b &&& 0xf).toNat : Int)) ∧
    (ofBits .i32 (bits (b.toNat : Int) &&& bits 3) = ((b &&& 3).toNat : Int)) ∧
    (ofBits .i32 (bits ((b.toNat : Int) / 2 ^ 4) &&& bits 15) = (((b >>> 4) &&& 0xf).toNat : Int)) := by
  have h := byte_facts ⟨b.toNat, b.isLt⟩
  simp only [BitVec.ofNat_toNat, BitVec.setWidth_eq] at h
  exact h

@[csem high] theorem shr4_and7 : Ty.u8.conv (ofBits .i32 (bits ((b.toNat : Int) / 2 ^ 4) &&& bits 7)) = (((b >>> 4) &&& 7).toNat : Int) := (byte_fact b).1
@[csem high] theorem shr4_and15 : Ty.u8.conv (ofBits .i32 (bits ((b.toNat : Int) / 2 ^ 4) &&& bits 15)) = (((b >>> 4) &&& 0xf).toNat : Int) := (byte_fact b).2.1
@[csem high] theorem shr4_and4 : Ty.u8.conv (ofBits .i32 (bits ((b.toNat : Int) / 2 ^ 4) &&& bits 4)) = (((b >>> 4) &&& 4).toNat : Int) := (byte_fact b).2.2.1
@[csem high] theorem shr5_and7 : Ty.u8.conv (ofBits .i32 (bits ((b.toNat : Int) / 2 ^ 5) &&& bits 7)) = (((b >>> 5) &&& 7).toNat : Int) := (byte_fact b).2.2.2.1
theorem and15 : ofBits .i32 (bits (b.toNat : Int) &&& bits 15) = ((b &&& 0xf).toNat : Int) := (byte_fact b).2.2.2.2.2.1
theorem and3 : ofBits .i32 (bits (b.toNat : Int) &&& bits 3) = ((b &&& 3).toNat : Int) := (byte_fact b).2.2.2.2.2.2.1
theorem and15_conv : Ty.u8.conv (ofBits .i32 (bits (b.toNat : Int) &&& bits 15)) = ((b &&& 0xf).toNat : Int) := (byte_fact b).2.2.2.2.1
end

/-- A byte of a list, from a position given as an integer. -/
def byteAt (l : Bytes) (k : Int) : Byte := l.getD k.toNat 0

section
variable {ω : Type}

@[csem] theorem cell_bytes (m : Mem ω) (l : Bytes) (k : Int) (h0 : 0 ≤ k) (h1 : k < l.length) : cell m k (some (l.map byteVal)) = .ok (.int .u8 (byteAt l k).toNat, m) := by
  rw [cell_of (t := .u8) (n := (byteAt l k).toNat) h0]
  unfold byteAt
  have hl : k.toNat < l.length := by omega
  rw [List.getElem?_map, List.getD_eq_getElem?_getD, List.getElem?_eq_getElem hl]
  rfl

@[csem high] theorem shl_byte8 (H : Host ω) (m : Mem ω) (b : Byte) : shift H .shl .i32 (b.toNat : Int) 8 m = .ok (.int .i32 ((b.toNat : Int) * 2 ^ 8), m) := by
  have := b.isLt
  exact shift_shl_i32 H m _ 8 (by omega) (by show _ * 256 ≤ _; omega) (by omega) (by omega)
@[csem high] theorem shl_byte16 (H : Host ω) (m : Mem ω) (b : Byte) : shift H .shl .i32 (b.toNat : Int) 16 m = .ok (.int .i32 ((b.toNat : Int) * 2 ^ 16), m) := by
  have := b.isLt
  exact shift_shl_i32 H m _ 16 (by omega) (by show _ * 65536 ≤ _; omega) (by omega) (by omega)

/-- A shift into the sign bit. -/
theorem shl24 (H : Host ω) (m : Mem ω) (b : Byte) : shift H .shl .i32 (b.toNat : Int) 24 m =
    .ok (.int .i32 (ofBits .i32 (b.setWidth 32 <<< 24)), { m with io := if 128 ≤ b.toNat then H.mark m.io else m.io }) := by
  have hb := bits_shl b 24
  have := b.isLt
  unfold shift
  rw [if_pos (by omega), if_neg (by decide), if_neg (by decide)]
  have h2 : (2 : Int) ^ (24 : Int).toNat = 16777216 := rfl
  have h3 : (2 : Int) ^ 24 = 16777216 := rfl
  rw [h3] at hb
  rw [h2, ← hb]
  have hof : ofBits .i32 (bits ((b.toNat : Int) * 16777216)) = ((b.toNat : Int) * 16777216).bmod 4294967296 := by
    unfold ofBits bits
    rw [if_neg (by decide), BitVec.toInt_ofInt]
  by_cases h : 128 ≤ b.toNat
  · rw [if_neg (by omega), if_pos h, hof]
  · rw [if_pos (by omega), if_neg h, hof, Int.bmod_eq_of_le (by omega) (by omega)]

end
end Uwan.C
