import Verif.Spec
import Verif.Spec.Text
/-
Specification of a transmitter: a message is built by writing its fields one after the other, most significant bit first.
Nothing here mentions readers or offsets.
-/

set_option autoImplicit false

namespace Dmr.Wire

open Spec

/-- One field of a message: `w` bits and the number that they hold. -/
structure Fld where
  w : Nat
  v : Nat
  lt : v < 2 ^ w

/-- A number of `w` bits is written as a field of `w` bits. -/
def ofBitVec {w : Nat} (x : BitVec w) : Fld := ⟨w, x.toNat, x.isLt⟩

/-- A flag is one bit. -/
def ofBool (x : Bool) : Fld := ⟨1, x.toNat, by cases x <;> decide⟩

instance {w : Nat} : CoeOut (BitVec w) Fld := ⟨ofBitVec⟩
instance : Coe Bool Fld := ⟨ofBool⟩

/-- A number of 16 bits with the low octet first. -/
def le16 (x : BitVec 16) : Fld := ⟨16, x.toNat % 256 * 256 + x.toNat / 256, by have := x.isLt; omega⟩

/-- A number of 32 bits with the lowest octet first. -/
def le32 (x : BitVec 32) : Fld :=
  ⟨32, x.toNat % 256 * 2 ^ 24 + x.toNat / 2 ^ 8 % 256 * 2 ^ 16 + x.toNat / 2 ^ 16 % 256 * 2 ^ 8 + x.toNat / 2 ^ 24,
    by have := x.isLt; omega⟩

/-- Number of bits of a list of fields. -/
def width : List Fld → Nat
  | [] => 0
  | f :: fs => f.w + width fs

/-- The number formed by the bits of all fields in order. -/
def number : List Fld → Nat
  | [] => 0
  | f :: fs => f.v * 2 ^ width fs + number fs

/-- `n` octets of a number, most significant first. -/
def octets : Nat → Nat → Bytes
  | 0, _ => []
  | n + 1, v => UInt8.ofNat (v / 256 ^ n) :: octets n v

/-- The octets of a list of fields (whose width is a multiple of eight). -/
def pack (fs : List Fld) : Bytes := octets (width fs / 8) (number fs)

/-- An ASCII text of `n` characters. -/
def Ascii (n : Nat) := { s : List Char // s.length = n ∧ ∀ c ∈ s, c.toNat < 128 }

/-- One octet for each character. -/
def Ascii.bytes {n : Nat} (s : Ascii n) : Bytes := s.1.map fun c => UInt8.ofNat c.toNat

/-- A string of `n` octets. -/
structure Octets (n : Nat) where
  val : Bytes
  len : val.length = n

/-- A text that takes `n` octets in UTF-8. -/
structure Utf8 (n : Nat) where
  val : List Char
  len : (encUtf8 val).length = n

/-- The number that the octets stand for, most significant first. -/
def bigEndian : Bytes → Nat
  | [] => 0
  | x :: b => x.toNat * 256 ^ b.length + bigEndian b

theorem bigEndian_lt : ∀ b : Bytes, bigEndian b < 2 ^ (8 * b.length)
  | [] => by decide
  | x :: b => by
    have h := bigEndian_lt b
    have hx := x.toNat_lt
    have e : 2 ^ (8 * (b.length + 1)) = 256 * 2 ^ (8 * b.length) := by rw [Nat.mul_add, Nat.pow_add, Nat.mul_comm]
    have e2 : 256 ^ b.length = 2 ^ (8 * b.length) := by rw [Nat.pow_mul]
    rw [bigEndian, List.length_cons, e, e2]
    calc x.toNat * 2 ^ (8 * b.length) + bigEndian b < x.toNat * 2 ^ (8 * b.length) + 2 ^ (8 * b.length) := by omega
      _ = (x.toNat + 1) * 2 ^ (8 * b.length) := by rw [Nat.add_mul, Nat.one_mul]
      _ ≤ 256 * 2 ^ (8 * b.length) := Nat.mul_le_mul_right _ hx

/-- Octets are written as they are. -/
def ofOctets {n : Nat} (x : Octets n) : Fld := ⟨8 * n, bigEndian x.val, by have := bigEndian_lt x.val; rwa [x.len] at this⟩

/-- A text is written in UTF-8. -/
def ofUtf8 {n : Nat} (x : Utf8 n) : Fld := ofOctets (n := n) ⟨encUtf8 x.val, x.len⟩

instance {n : Nat} : CoeOut (Octets n) Fld := ⟨ofOctets⟩
instance {n : Nat} : CoeOut (Utf8 n) Fld := ⟨ofUtf8⟩

/-- A list of fields. -/
macro "f[" xs:term,* "]" : term => `(([$xs,*] : List Fld))

end Dmr.Wire
