import Verif.Spec
import Verif.Text
/-
Model of the part of the `kaitaistruct` runtime (pyproject.toml:27, `kaitaistruct>=0.10`; its source
is not in /repo) that the decoders use. A reader keeps the stream state even when it raises.
-/

namespace Dmr

/-- Python exceptions that can leave a decoder.
`eof` EOFError, `validation path` kaitaistruct.ValidationNotEqualError raised for the given schema path,
`unicode` UnicodeDecodeError, `value` ValueError, `attribute` AttributeError, `index` IndexError,
`overflow` OverflowError. `diverge` is not an exception: it is what the model answers when a loop exceeds its fuel, i.e. a
would-be infinite loop. -/
inductive PyErr where
  | eof
  | validation (path : String)
  | unicode
  | value
  | attribute
  | index
  | overflow
  | diverge
  deriving DecidableEq, Repr

/-- kaitaistruct.KaitaiStream over a BytesIO: contents, `tell()`, and the bit buffer
(`bits`, `bits_left`). -/
structure Stream where
  buf : Bytes
  pos : Nat
  bits : Nat
  bitsLeft : Nat
  deriving DecidableEq, Repr

/-- `KaitaiStream(BytesIO(buf))`, used by every `X.from_bytes(buf)`. -/
def Stream.new (buf : Bytes) : Stream := { buf, pos := 0, bits := 0, bitsLeft := 0 }

/-- A reader: may raise, and in any case leaves the stream in some state. -/
def Rd (α : Type) : Type := Stream → Except PyErr α × Stream

namespace Rd

/-- Return a value without touching the stream. -/
@[inline] def pure (a : α) : Rd α := fun s => (.ok a, s)

/-- Statement sequencing: an exception skips the rest. -/
@[inline] def bind (r : Rd α) (k : α → Rd β) : Rd β := fun s =>
  match r s with
  | (.ok a, s') => k a s'
  | (.error e, s') => (.error e, s')

instance : Monad Rd where
  pure := Rd.pure
  bind := Rd.bind

/-- `raise e`. -/
def throw (e : PyErr) : Rd α := fun s => (.error e, s)

end Rd

/-- `X.from_bytes(buf)` = `X(KaitaiStream(BytesIO(buf)))`: the resulting object or the exception. -/
def fromBytes (r : Rd α) (buf : Bytes) : Except PyErr α := (r (Stream.new buf)).1

/-- `for byte in buf: res = res << 8 | byte` (inside `read_bits_int_be`). -/
def orBytes (buf : Bytes) : Nat := buf.foldl (fun res b => (res <<< 8) ||| b.toNat) 0

/-- `KaitaiStream._read_bytes_not_aligned(n)` for `n >= 0`: `BytesIO.read(n)`, EOFError if short
(the short read has moved the position to the end). -/
def readBytesNotAligned (n : Nat) : Rd Bytes := fun s =>
  let r := (s.buf.drop s.pos).take n
  let s' := { s with pos := s.pos + r.length }
  if n ≤ r.length then (.ok r, s') else (.error .eof, s')

/-- `KaitaiStream.align_to_byte()`. -/
def alignToByte : Rd Unit := fun s => (.ok (), { s with bits := 0, bitsLeft := 0 })

/-- `KaitaiStream.read_bytes(n)` for `n >= 0`. -/
def readBytes (n : Nat) : Rd Bytes := do
  alignToByte
  readBytesNotAligned n

/-- `KaitaiStream.read_bytes(n)` where `n` is computed and may be negative (then ValueError). -/
def readBytesInt (n : Int) : Rd Bytes := do
  alignToByte
  if n < 0 then Rd.throw .value else readBytesNotAligned n.toNat

/-- `BytesIO.read()`: everything from the position to the end. -/
def readRest : Rd Bytes := fun s => (.ok (s.buf.drop s.pos), { s with pos := max s.pos s.buf.length })

/-- `KaitaiStream.read_bytes_full()`. -/
def readBytesFull : Rd Bytes := do
  alignToByte
  readRest

/-- `KaitaiStream.read_bits_int_be(n)`. `bits_left` is updated before the bytes are fetched. -/
def readBitsIntBe (n : Nat) : Rd Nat := fun s =>
  let bitsNeeded : Int := (n : Int) - (s.bitsLeft : Int)
  let left : Nat := ((-bitsNeeded) % 8).toNat
  let s1 := { s with bitsLeft := left }
  let mask : Nat := (1 <<< left) - 1
  if bitsNeeded > 0 then
    let bytesNeeded : Nat := ((bitsNeeded - 1) / 8 + 1).toNat
    match readBytesNotAligned bytesNeeded s1 with
    | (.error e, s2) => (.error e, s2)
    | (.ok chunk, s2) =>
      let new := orBytes chunk
      (.ok ((new >>> left) ||| (s.bits <<< bitsNeeded.toNat)), { s2 with bits := new &&& mask })
  else
    (.ok (s.bits >>> (-bitsNeeded).toNat), { s1 with bits := s.bits &&& mask })

/-- `self._io.read_bits_int_be(1) != 0`. -/
def readFlag : Rd Bool := do
  let v ← readBitsIntBe 1
  return v != 0

/-- `KaitaiStream.read_u1()`. -/
def readU1 : Rd Nat := do
  let b ← readBytes 1
  return u8 b 0
/-- `KaitaiStream.read_u2be()` (`struct.unpack('>H', ...)`). -/
def readU2be : Rd Nat := do
  let b ← readBytes 2
  return u16be b 0
/-- `KaitaiStream.read_u2le()`. -/
def readU2le : Rd Nat := do
  let b ← readBytes 2
  return u16le b 0
/-- `KaitaiStream.read_u4be()`. -/
def readU4be : Rd Nat := do
  let b ← readBytes 4
  return u32be b 0
/-- `KaitaiStream.read_u4le()`. -/
def readU4le : Rd Nat := do
  let b ← readBytes 4
  return u32le b 0
/-- `KaitaiStream.read_s2be()`. -/
def readS2be : Rd Int := do
  let b ← readBytes 2
  return s16be b 0

/-- `KaitaiStream.is_eof()`: unread bits mean "no"; otherwise try to read one byte. -/
def isEof : Rd Bool := fun s =>
  (.ok (if s.bitsLeft > 0 then false else decide (s.buf.length ≤ s.pos)), s)

/-- `KaitaiStream.pos()`. -/
def posIo : Rd Nat := fun s => (.ok s.pos, s)
/-- `KaitaiStream.size()`. -/
def sizeIo : Rd Nat := fun s => (.ok s.buf.length, s)
/-- `KaitaiStream.seek(n)`, as in kaitaistruct 0.10 (the bit buffer is kept; 0.11 clears it, which makes
no difference where the decoders seek because no bits are pending there, see `Props/Lazy`). -/
def seekIo (n : Nat) : Rd Unit := fun s => (.ok (), { s with pos := n })

/-- `if not value == expected: raise ValidationNotEqualError(expected, value, io, path)`. -/
def validateEq [DecidableEq α] (value expected : α) (path : String) : Rd Unit :=
  if value = expected then Rd.pure () else Rd.throw (.validation path)

/-- The statement `if cond: self.attr = r`: the attribute exists only when the condition holds. -/
def optionally (c : Bool) (r : Rd α) : Rd (Option α) :=
  if c then do
    let x ← r
    return some x
  else return none

/-- `for i in range(n): xs.append(r)`. -/
def repeatN (n : Nat) (r : Rd α) : Rd (List α) :=
  match n with
  | 0 => return []
  | n + 1 => do
    let x ← r
    let xs ← repeatN n r
    return x :: xs

/-- `while True: x = r; xs.append(x); if stop: break` where `stop` may look at the item and the stream.
`fuel` bounds the iterations; running out is reported as `diverge`. -/
def repeatUntil (fuel : Nat) (r : Rd α) (stop : α → Rd Bool) : Rd (List α) :=
  match fuel with
  | 0 => Rd.throw .diverge
  | fuel + 1 => do
    let x ← r
    let b ← stop x
    if b then return [x]
    else do
      let xs ← repeatUntil fuel r stop
      return x :: xs

/-- `while not self._io.is_eof(): xs.append(r)`. -/
def repeatEos (fuel : Nat) (r : Rd α) : Rd (List α) := do
  let e ← isEof
  if e then return []
  else match fuel with
    | 0 => Rd.throw .diverge
    | fuel + 1 => do
      let x ← r
      let xs ← repeatEos fuel r
      return x :: xs

/-- Loop bound handed to the loops: more iterations than the stream has bytes. -/
def loopFuel : Rd Nat := fun s => (.ok (s.buf.length + 2), s)

/-- Python `Enum` classes: the members in source order and their values. -/
class PyEnum (E : Type) where
  all : List E
  value : E → Nat

/-- What `resolve_enum` returns: an enum member, or the bare integer. -/
inductive EnumVal (E : Type) where
  | known (e : E)
  | raw (v : Nat)
  deriving DecidableEq, Repr

/-- `KaitaiStream.resolve_enum(E, value)`: `E(value)`, or `value` itself on ValueError. -/
def resolveEnum (E : Type) [PyEnum E] (v : Nat) : EnumVal E :=
  match (PyEnum.all (E := E)).find? (fun e => PyEnum.value e == v) with
  | some e => .known e
  | none => .raw v

/-- Reading an integer and resolving it as an enumeration. -/
def asEnum (E : Type) [PyEnum E] (r : Rd Nat) : Rd (EnumVal E) := do
  let v ← r
  return resolveEnum E v

/-- `(bytes).decode(codec)`: UnicodeDecodeError when the codec rejects. -/
def decodeWith (codec : Bytes → Option PyStr) (r : Rd Bytes) : Rd PyStr := do
  let b ← r
  match codec b with
  | some s => return s
  | none => Rd.throw .unicode

end Dmr
