import Verif.Spec
/-
Specification of text: the encoders of the four encodings, written from the definition of each encoding
form (not from the decoders).
-/

namespace Dmr.Spec

/-- ASCII encoding of one character, if it has one. -/
def encAsciiChar (c : Char) : Option Bytes :=
  if c.toNat < 128 then some [UInt8.ofNat c.toNat] else none

/-- `s.encode("ascii")`. -/
def encAscii : List Char → Option Bytes
  | [] => some []
  | c :: cs =>
    match encAsciiChar c, encAscii cs with
    | some a, some b => some (a ++ b)
    | _, _ => none

/-- UTF-8 encoding of one character: 7, 11, 16 or 21 bits spread over 1 to 4 bytes. -/
def encUtf8Char (c : Char) : Bytes :=
  let n := c.toNat
  if n < 0x80 then [UInt8.ofNat n]
  else if n < 0x800 then [UInt8.ofNat (0xC0 + n / 64), UInt8.ofNat (0x80 + n % 64)]
  else if n < 0x10000 then
    [UInt8.ofNat (0xE0 + n / 4096), UInt8.ofNat (0x80 + n / 64 % 64), UInt8.ofNat (0x80 + n % 64)]
  else
    [UInt8.ofNat (0xF0 + n / 262144), UInt8.ofNat (0x80 + n / 4096 % 64),
     UInt8.ofNat (0x80 + n / 64 % 64), UInt8.ofNat (0x80 + n % 64)]

/-- `s.encode("utf-8")`. -/
def encUtf8 (s : List Char) : Bytes := s.flatMap encUtf8Char

/-- UTF-16 code units of one character. -/
def utf16Units (c : Char) : List Nat :=
  let n := c.toNat
  if n < 0x10000 then [n]
  else [0xD800 + (n - 0x10000) / 1024, 0xDC00 + (n - 0x10000) % 1024]

/-- Little-endian bytes of a code unit. -/
def unitBytesLe (u : Nat) : Bytes := [UInt8.ofNat (u % 256), UInt8.ofNat (u / 256)]
/-- Big-endian bytes of a code unit. -/
def unitBytesBe (u : Nat) : Bytes := [UInt8.ofNat (u / 256), UInt8.ofNat (u % 256)]

/-- `s.encode("utf-16-le")`. -/
def encUtf16le (s : List Char) : Bytes := s.flatMap (fun c => (utf16Units c).flatMap unitBytesLe)
/-- `s.encode("utf-16-be")`. -/
def encUtf16be (s : List Char) : Bytes := s.flatMap (fun c => (utf16Units c).flatMap unitBytesBe)

end Dmr.Spec
