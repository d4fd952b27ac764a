import Verif.Runtime
/-
Model of okdmr/kaitai/hytera/radio_ip.py (generated by tools/py2lean.py from the Python AST;
definitions marked "hand-written" are not).
-/

namespace Dmr.Hytera

/-- okdmr/kaitai/hytera/radio_ip.py:26-30 attributes of `RadioIp`. -/
structure RadioIp where
  subnet : Nat
  radio_id_1 : Nat
  radio_id_2 : Nat
  radio_id_3 : Nat
  deriving DecidableEq

/-- okdmr/kaitai/hytera/radio_ip.py:26-30 `RadioIp._read`. -/
def RadioIp.read : Rd RadioIp := do
  let subnet ← readU1
  let radio_id_1 ← readU1
  let radio_id_2 ← readU1
  let radio_id_3 ← readU1
  return { subnet, radio_id_1, radio_id_2, radio_id_3 }

/-- okdmr/kaitai/hytera/radio_ip.py:34-42 property `radio_id` (hand-written; the value is cached in
`_m_radio_id`, see `Verif/Model/Lazy.lean`). -/
def RadioIp.radio_id (o : RadioIp) : Nat :=
  (((o.radio_id_1 <<< 16) + (o.radio_id_2 <<< 8)) + o.radio_id_3)

/-- okdmr/kaitai/hytera/radio_ip.py:44-56 property `radio_ip` (hand-written; `str(int)` is
`Nat.toDigits 10`). -/
def RadioIp.radio_ip (o : RadioIp) : PyStr :=
  Nat.toDigits 10 o.subnet ++ ".".toList ++ Nat.toDigits 10 o.radio_id_1 ++ ".".toList
    ++ Nat.toDigits 10 o.radio_id_2 ++ ".".toList ++ Nat.toDigits 10 o.radio_id_3

end Dmr.Hytera
