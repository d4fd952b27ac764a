/-
Specification vocabulary: numbers and slices found at a given place of a byte string.
Nothing in this file mentions streams or readers; it is the independent language in which the
properties of the decoders are stated.
-/

namespace Dmr

/-- A Python `bytes` value. -/
abbrev Bytes := List UInt8

/-- The big-endian value of a byte string (first byte most significant). -/
def beVal : Bytes → Nat
  | [] => 0
  | b :: bs => b.toNat * 256 ^ bs.length + beVal bs

/-- The number formed by the `w` bits of `buf` that start at bit offset `off`
(offset 0 is the most significant bit of byte 0): shift the whole buffer, seen as one big-endian
number, right until bit `off + w` is at the bottom and keep `w` bits. -/
def bitsAt (buf : Bytes) (off w : Nat) : Nat :=
  beVal buf / 2 ^ (8 * buf.length - (off + w)) % 2 ^ w

/-- The single bit at bit offset `off`, as a truth value. -/
def flagAt (buf : Bytes) (off : Nat) : Bool := bitsAt buf off 1 == 1

/-- `n` bytes of `buf` starting at byte offset `off` (Python `buf[off:off+n]`). -/
def slice (buf : Bytes) (off n : Nat) : Bytes := (buf.drop off).take n

/-- The byte at offset `off` as a number (only used where `off < buf.length` is known). -/
def u8 (buf : Bytes) (off : Nat) : Nat := (buf.getD off 0).toNat

/-- Unsigned 16 bit big-endian. -/
def u16be (buf : Bytes) (off : Nat) : Nat := u8 buf off * 256 + u8 buf (off + 1)
/-- Unsigned 16 bit little-endian. -/
def u16le (buf : Bytes) (off : Nat) : Nat := u8 buf off + u8 buf (off + 1) * 256
/-- Unsigned 24 bit big-endian. -/
def u24be (buf : Bytes) (off : Nat) : Nat :=
  u8 buf off * 65536 + u8 buf (off + 1) * 256 + u8 buf (off + 2)
/-- Unsigned 24 bit little-endian. -/
def u24le (buf : Bytes) (off : Nat) : Nat :=
  u8 buf off + u8 buf (off + 1) * 256 + u8 buf (off + 2) * 65536
/-- Unsigned 32 bit big-endian. -/
def u32be (buf : Bytes) (off : Nat) : Nat :=
  u8 buf off * 16777216 + u8 buf (off + 1) * 65536 + u8 buf (off + 2) * 256 + u8 buf (off + 3)
/-- Unsigned 32 bit little-endian. -/
def u32le (buf : Bytes) (off : Nat) : Nat :=
  u8 buf off + u8 buf (off + 1) * 256 + u8 buf (off + 2) * 65536 + u8 buf (off + 3) * 16777216
/-- Signed 16 bit big-endian (two's complement). -/
def s16be (buf : Bytes) (off : Nat) : Int :=
  if u16be buf off < 32768 then (u16be buf off : Int) else (u16be buf off : Int) - 65536

end Dmr
