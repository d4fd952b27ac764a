import Verif.Runtime
/-
Specification of the stream: a byte string seen as a list of bits, and a cursor moving over it.
-/

namespace Dmr.Spec

/-- The eight bits of a byte, most significant first. -/
def byteBits (x : UInt8) : List Bool :=
  [7, 6, 5, 4, 3, 2, 1, 0].map fun i => x.toNat.testBit i

/-- All bits of a byte string in transmission order. -/
def bitsOf (b : Bytes) : List Bool := b.flatMap byteBits

/-- The number a list of bits denotes, most significant bit first. -/
def bitsVal : List Bool → Nat
  | [] => 0
  | x :: xs => (if x then 2 ^ xs.length else 0) + bitsVal xs

/-- Cut a list of bits into consecutive fields of the given widths. -/
def fieldsOf : List Nat → List Bool → List Nat
  | [], _ => []
  | w :: ws, bs => bitsVal (bs.take w) :: fieldsOf ws (bs.drop w)

/-- The read operations the decoders perform on a stream. -/
inductive Op where
  /-- `read_bits_int_be(n)` -/
  | bits (n : Nat)
  /-- `read_bytes(n)` -/
  | bytes (n : Int)
  /-- `read_bytes_full()` -/
  | full
  /-- `align_to_byte()` -/
  | align
  /-- `is_eof()` -/
  | isEof
  deriving DecidableEq, Repr

/-- What a read operation returns. -/
inductive Val where
  | number (n : Nat)
  | bytes (b : Bytes)
  | flag (b : Bool)
  | unit
  deriving DecidableEq, Repr

/-- What one operation should do when exactly the first `p` bits of `b` have been consumed: the returned value
and the new number of consumed bits, or the exception. -/
def step (b : Bytes) (p : Nat) : Op → Except PyErr (Val × Nat)
  | .bits n =>
    if p + n ≤ (bitsOf b).length then .ok (.number (bitsVal (((bitsOf b).drop p).take n)), p + n)
    else .error .eof
  | .bytes n =>
    let q := (p + 7) / 8
    if n < 0 then .error .value
    else if q + n.toNat ≤ b.length then .ok (.bytes ((b.drop q).take n.toNat), 8 * (q + n.toNat))
    else .error .eof
  | .full => .ok (.bytes (b.drop ((p + 7) / 8)), 8 * b.length)
  | .align => .ok (.unit, 8 * ((p + 7) / 8))
  | .isEof => .ok (.flag (p == 8 * b.length), p)

/-- A history of operations, up to and including the first one that raises. -/
def history (b : Bytes) : Nat → List Op → List (Except PyErr Val)
  | _, [] => []
  | p, o :: os =>
    match step b p o with
    | .ok (v, p') => .ok v :: history b p' os
    | .error e => [.error e]

end Dmr.Spec
