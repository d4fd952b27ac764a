import Verif.Runtime
import Mathlib.Data.Int.Log
import Mathlib.Algebra.Order.Floor.Ring
import Mathlib.Data.Rat.Floor
/-
Model of okdmr/kaitai/motorola/motorola_utils.py (hand-written). Python `int` is `Nat`/`Int`; a payload is the list
of byte values (`Uintvar.payload`). Python `float` is a sign and an exact magnitude (binary64 values only; no
infinities or NaN can arise: every conversion that would overflow raises OverflowError instead).
-/

namespace Dmr.Motorola.MotorolaUtils

/-- okdmr/kaitai/motorola/motorola_utils.py:4-8 `uintvar_to_int`. -/
def uintvar_to_int (payload : List Nat) : Nat :=
  payload.foldl (fun out single => (out <<< 7) + (single &&& 0x7F)) 0

/-- Python builtin `bin(n)` for `n >= 0`: the text `0b` followed by the binary digits without leading zeros (used by
okdmr/kaitai/motorola/motorola_utils.py:12). -/
def pyBin (n : Nat) : List Char := '0' :: 'b' :: Nat.toDigits 2 n

/-- Python builtin `int(s, 2)` for a text of binary digits (used by okdmr/kaitai/motorola/motorola_utils.py:12;
only called on texts of `0` and `1` here, other characters are not modelled). -/
def pyInt2 (s : List Char) : Nat := s.foldl (fun v c => 2 * v + (if c = '1' then 1 else 0)) 0

/-- okdmr/kaitai/motorola/motorola_utils.py:11-12 `clear_msb`: `int("0" + bin(dirty)[3:], 2)`. -/
def clear_msb (dirty : Nat) : Nat := pyInt2 ('0' :: (pyBin dirty).drop 3)

/-- okdmr/kaitai/motorola/motorola_utils.py:15-20 `sintvar_to_int`; `payload[0]` raises IndexError on an empty list. -/
def sintvar_to_int (payload : List Nat) : Except PyErr Int :=
  let out := clear_msb (uintvar_to_int payload)
  match payload[0]? with
  | none => .error .index
  | some first => if (first &&& 0x40) > 0 then .ok (-(out : Int)) else .ok (out : Int)

/-- A Python `float` that is a finite number: sign bit and magnitude (so that `-0.0` is not `0.0`). -/
structure PyFloat where
  negative : Bool
  magnitude : ℚ
  deriving DecidableEq

/-- The number a float stands for. -/
def PyFloat.toRat (x : PyFloat) : ℚ := if x.negative then -x.magnitude else x.magnitude

/-- Round to the nearest integer, ties to even. -/
def roundEven (q : ℚ) : ℤ :=
  let n := ⌊q⌋
  if q - n < 1 / 2 then n
  else if q - n > 1 / 2 then n + 1
  else if n % 2 = 0 then n else n + 1

/-- IEEE 754 binary64 rounding (to nearest, ties to even) of a non-negative rational, with subnormals; OverflowError
when the rounded value is too large. This is what CPython's `int / int`, the conversion of an `int` operand to `float`
and the float addition in okdmr/kaitai/motorola/motorola_utils.py:23-26 and 29-34 do (for the addition an infinity
would be produced instead of the exception; it cannot occur there). -/
def toBinary64 (q : ℚ) : Except PyErr ℚ :=
  if q = 0 then .ok 0
  else
    let g : ℤ := max (Int.log 2 q - 52) (-1074)
    let r : ℚ := roundEven (q / 2 ^ g) * 2 ^ g
    if r < 2 ^ (1024 : ℤ) then .ok r else .error .overflow

/-- okdmr/kaitai/motorola/motorola_utils.py:24-26 and 30-32: `whole + (fraction / 128 ** k)`; the division is done
first, then `whole` is converted to float, then they are added. -/
def floatSum (whole fraction k : Nat) : Except PyErr ℚ := do
  let f ← toBinary64 ((fraction : ℚ) / 128 ^ k)
  let w ← toBinary64 (whole : ℚ)
  toBinary64 (w + f)

/-- okdmr/kaitai/motorola/motorola_utils.py:23-26 `ufloatvar_to_float`. -/
def ufloatvar_to_float (int_part fraction_part : List Nat) : Except PyErr PyFloat := do
  let m ← floatSum (uintvar_to_int int_part) (uintvar_to_int fraction_part) fraction_part.length
  return ⟨false, m⟩

/-- okdmr/kaitai/motorola/motorola_utils.py:29-34 `sfloatvar_to_float`; `sint_part[0]` raises IndexError on an empty
list (after the arithmetic). -/
def sfloatvar_to_float (sint_part fraction_part : List Nat) : Except PyErr PyFloat := do
  let m ← floatSum (clear_msb (uintvar_to_int sint_part)) (uintvar_to_int fraction_part) fraction_part.length
  match sint_part[0]? with
  | none => .error .index
  | some first => return ⟨decide ((first &&& 0x40) > 0), m⟩

end Dmr.Motorola.MotorolaUtils
