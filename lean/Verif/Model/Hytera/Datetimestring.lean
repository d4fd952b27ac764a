import Verif.Runtime
/-
Model of okdmr/kaitai/hytera/datetimestring.py (generated by tools/py2lean.py from the Python AST;
definitions marked "hand-written" are not).
-/

namespace Dmr.Hytera

/-- okdmr/kaitai/hytera/datetimestring.py:23-24 attributes of `Datetimestring`. -/
structure Datetimestring where
  datetime : PyStr
  deriving DecidableEq

/-- okdmr/kaitai/hytera/datetimestring.py:23-24 `Datetimestring._read`. -/
def Datetimestring.read : Rd Datetimestring := do
  let datetime ← decodeWith decodeUtf8 (readBytes 14)
  return { datetime }

end Dmr.Hytera
