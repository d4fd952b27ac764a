import Verif.Spec
/-
Python's strict `bytes.decode(...)` for the codecs used by the decoders ("ASCII", "UTF-8",
"UTF-16LE"/"utf-16-le", "utf-16-be"). CPython's codecs are not in /repo; they are modelled from
their documented behaviour (Unicode Table 3-7 for UTF-8; surrogate pairs and even length for UTF-16;
the endian-specific codecs keep a byte order mark as an ordinary character).
-/

namespace Dmr

/-- A Python `str` produced by a strict decoder: a list of Unicode scalar values. -/
abbrev PyStr := List Char

/-! ### Decoders -/

/-- `b.decode("ASCII")`; `none` stands for UnicodeDecodeError. -/
def decodeAscii : Bytes → Option PyStr
  | [] => some []
  | b :: bs =>
    if b.toNat < 128 then (decodeAscii bs).map (Char.ofNat b.toNat :: ·) else none

/-- UTF-8 continuation byte in `lo..hi`. -/
def inRange (b : UInt8) (lo hi : Nat) : Bool := decide (lo ≤ b.toNat) && decide (b.toNat ≤ hi)

/-- One UTF-8 encoded character at the start of the input. -/
def utf8Step : Bytes → Option (Char × Bytes)
  | [] => none
  | b0 :: r0 =>
    if b0.toNat < 0x80 then some (Char.ofNat b0.toNat, r0)
    else if b0.toNat < 0xC2 then none
    else if b0.toNat < 0xE0 then
      match r0 with
      | b1 :: r =>
        if inRange b1 0x80 0xBF then
          some (Char.ofNat ((b0.toNat - 0xC0) * 64 + (b1.toNat - 0x80)), r)
        else none
      | _ => none
    else if b0.toNat < 0xF0 then
      match r0 with
      | b1 :: b2 :: r =>
        if inRange b1 (if b0.toNat = 0xE0 then 0xA0 else 0x80) (if b0.toNat = 0xED then 0x9F else 0xBF)
            && inRange b2 0x80 0xBF then
          some (Char.ofNat ((b0.toNat - 0xE0) * 4096 + (b1.toNat - 0x80) * 64 + (b2.toNat - 0x80)), r)
        else none
      | _ => none
    else if b0.toNat < 0xF5 then
      match r0 with
      | b1 :: b2 :: b3 :: r =>
        if inRange b1 (if b0.toNat = 0xF0 then 0x90 else 0x80) (if b0.toNat = 0xF4 then 0x8F else 0xBF)
            && inRange b2 0x80 0xBF && inRange b3 0x80 0xBF then
          some (Char.ofNat ((b0.toNat - 0xF0) * 262144 + (b1.toNat - 0x80) * 4096
            + (b2.toNat - 0x80) * 64 + (b3.toNat - 0x80)), r)
        else none
      | _ => none
    else none

/-- One UTF-16 character, given how two bytes make a code unit. -/
def utf16Step (unit : UInt8 → UInt8 → Nat) : Bytes → Option (Char × Bytes)
  | a :: b :: r =>
    let u := unit a b
    if u < 0xD800 ∨ 0xE000 ≤ u then some (Char.ofNat u, r)
    else if u < 0xDC00 then
      match r with
      | c :: d :: r' =>
        let v := unit c d
        if 0xDC00 ≤ v ∧ v < 0xE000 then
          some (Char.ofNat (0x10000 + (u - 0xD800) * 1024 + (v - 0xDC00)), r')
        else none
      | _ => none
    else none
  | _ => none

/-- Decode characters with `step` until nothing is left. `fuel` bounds the number of characters and is
never the reason for a rejection (`decodeLoop_complete` in `TextProofs`). -/
def decodeLoop (step : Bytes → Option (Char × Bytes)) : Nat → Bytes → Option PyStr
  | _, [] => some []
  | 0, _ :: _ => none
  | fuel + 1, bs@(_ :: _) =>
    match step bs with
    | some (c, r) => (decodeLoop step fuel r).map (c :: ·)
    | none => none

/-- `b.decode("UTF-8")`. -/
def decodeUtf8 (b : Bytes) : Option PyStr := decodeLoop utf8Step b.length b

/-- UTF-16LE code unit. -/
def unitLe (a b : UInt8) : Nat := a.toNat + b.toNat * 256
/-- UTF-16BE code unit. -/
def unitBe (a b : UInt8) : Nat := a.toNat * 256 + b.toNat

/-- `b.decode("UTF-16LE")` / `b.decode("utf-16-le")`. -/
def decodeUtf16le (b : Bytes) : Option PyStr := decodeLoop (utf16Step unitLe) b.length b
/-- `b.decode("utf-16-be")`. -/
def decodeUtf16be (b : Bytes) : Option PyStr := decodeLoop (utf16Step unitBe) b.length b

end Dmr
