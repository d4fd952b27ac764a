import Verif.Runtime
/-
Model of okdmr/kaitai/hytera/intervalstring.py (generated by tools/py2lean.py from the Python AST;
definitions marked "hand-written" are not).
-/

namespace Dmr.Hytera

/-- okdmr/kaitai/hytera/intervalstring.py:23-24 attributes of `Intervalstring`. -/
structure Intervalstring where
  interval : PyStr
  deriving DecidableEq

/-- okdmr/kaitai/hytera/intervalstring.py:23-24 `Intervalstring._read`. -/
def Intervalstring.read : Rd Intervalstring := do
  let interval ← decodeWith decodeUtf8 (readBytes 8)
  return { interval }

end Dmr.Hytera
