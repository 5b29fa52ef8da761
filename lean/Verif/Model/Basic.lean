/-!
# Basic types of the model

Machine words are `BitVec`s, byte arrays are lists.
-/

namespace Uwan

/-- C `uint8_t`. -/
abbrev Byte := BitVec 8
/-- C `uint16_t`. -/
abbrev U16 := BitVec 16
/-- C `uint32_t`. -/
abbrev U32 := BitVec 32
/-- A C byte array of known length. -/
abbrev Bytes := List Byte
/-- A 16-byte array: AES key, AES block or CMAC digest
(include/uwan/stack.h:34-36,41-42). -/
abbrev Block := Vector Byte 16

/-- Undefined behaviour that stops the model (a C program may do anything from there on). -/
inductive UB where
  /-- access outside an array -/
  | oob
  /-- access or call through a null pointer -/
  | nullDeref
  /-- a loop that does not terminate -/
  | diverge
  /-- signed overflow or shift by an amount outside 0..31 -/
  | arith
  deriving DecidableEq, Repr

deriving instance DecidableEq for Except

/-- The C expression `(x >> (8 * k)) & 0xff`. -/
def byteOf (x : U32) (k : Nat) : Byte := (x >>> (8 * k)).setWidth 8

/-- The C expression `a | b << 8` on two bytes, as `uint16_t`. -/
def or16 (a b : Byte) : U16 := a.setWidth 16 ||| (b.setWidth 16 <<< 8)

/-- The C expression `a | b << 8 | c << 16` on three bytes, as `uint32_t`. -/
def or24 (a b c : Byte) : U32 :=
  a.setWidth 32 ||| (b.setWidth 32 <<< 8) ||| (c.setWidth 32 <<< 16)

/-- The C expression `a | b << 8 | c << 16 | d << 24` on four bytes, as `uint32_t`, with the bits every
compiler produces.  In C99 `d << 24` is undefined for `d >= 128`; callers record that
separately (`Ev.ubShift`). -/
def or32 (a b c d : Byte) : U32 :=
  a.setWidth 32 ||| (b.setWidth 32 <<< 8) ||| (c.setWidth 32 <<< 16) ||| (d.setWidth 32 <<< 24)

/-- Sixteen bytes starting at the head of a list, as a block.  Only used on lists with at least 16
bytes (otherwise `none`). -/
def toBlock? (l : Bytes) : Option Block :=
  if h : (l.take 16).length = 16 then some ⟨(l.take 16).toArray, by simpa using h⟩ else none

/-- `memcpy(dst + off, src, |src|)`: `none` when it would run over the end of `dst`. -/
def blit (dst : Bytes) (off : Nat) (src : Bytes) : Option Bytes :=
  if off + src.length ≤ dst.length then
    some (dst.take off ++ src ++ dst.drop (off + src.length))
  else none

/-- Lift a partial operation: `none` is an out-of-bounds access. -/
def orOob {α} : Option α → Except UB α
  | some a => .ok a
  | none => .error .oob

end Uwan
