import Verif.Runtime
/-
Model of okdmr/kaitai/hytera/radio_id.py (generated by tools/py2lean.py from the Python AST;
definitions marked "hand-written" are not).
-/

namespace Dmr.Hytera

/-- okdmr/kaitai/hytera/radio_id.py:23-24 attributes of `RadioId`. -/
structure RadioId where
  radio_id_raw : Nat
  deriving DecidableEq

/-- okdmr/kaitai/hytera/radio_id.py:23-24 `RadioId._read`. -/
def RadioId.read : Rd RadioId := do
  let radio_id_raw ← readU4le
  return { radio_id_raw }

/-- okdmr/kaitai/hytera/radio_id.py:26-32 property `radio_id` (hand-written). -/
def RadioId.radio_id (o : RadioId) : Nat := o.radio_id_raw >>> 8

end Dmr.Hytera
