import Verif.Runtime
/-
Model of okdmr/kaitai/tools/byteswap.py (hand-written).
-/

namespace Dmr.Tools

/-- The Python expression `data[start::2]`. -/
def everySecond : Nat → List α → List α
  | _, [] => []
  | 0, x :: xs => x :: everySecond 1 xs
  | n + 1, _ :: xs => everySecond n xs

/-- The effect of the extended slice assignment `data[start::2] = values` when the sizes agree. -/
def putEverySecond : Nat → List α → List α → List α
  | _, [], _ => []
  | 0, _ :: xs, v :: vs => v :: putEverySecond 1 xs vs
  | 0, x :: xs, [] => x :: xs
  | n + 1, x :: xs, vs => x :: putEverySecond n xs vs

/-- The statement `data[start::2] = values`: ValueError if the number of values is not the number of positions. -/
def assignEverySecond (start : Nat) (data values : List α) : Except PyErr (List α) :=
  if values.length = (everySecond start data).length then .ok (putEverySecond start data values) else .error .value

/-- The Python expression `data[:n]`: a negative `n` counts from the end. -/
def sliceTo (data : List α) (n : Int) : List α :=
  if n < 0 then data.take (data.length - (-n).toNat) else data.take n.toNat

/-- okdmr/kaitai/tools/byteswap.py:1-7 `byteswap_bytearray(data)`: the returned bytes or exception, and the (mutable)
argument afterwards. -/
def byteswapBytearray (data : Bytes) : Except PyErr Bytes × Bytes :=
  let trim : Int := data.length - 1
  let data := if data.length % 2 ≠ 0 then data ++ [0x00] else data
  -- both right-hand sides are evaluated before the first assignment
  let odd := everySecond 1 data
  let even := everySecond 0 data
  match assignEverySecond 0 data odd with
  | .error e => (.error e, data)
  | .ok data =>
    match assignEverySecond 1 data even with
    | .error e => (.error e, data)
    | .ok data => (.ok (sliceTo data trim), data)

/-- okdmr/kaitai/tools/byteswap.py:10-11 `byteswap_bytes(data)`: works on a copy, so the (immutable) argument stays as it is. -/
def byteswapBytes (data : Bytes) : Except PyErr Bytes := (byteswapBytearray data).1

end Dmr.Tools
