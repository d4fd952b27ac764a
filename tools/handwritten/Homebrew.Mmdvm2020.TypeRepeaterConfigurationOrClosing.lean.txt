/-- okdmr/kaitai/homebrew/mmdvm2020.py:154-161 possible objects in `TypeRepeaterConfigurationOrClosing.data`. -/
inductive Mmdvm2020.TypeRepeaterConfigurationOrClosing.DataUnion where
  | typeRepeaterClosing (x : Mmdvm2020.TypeRepeaterClosing)
  | typeRepeaterConfiguration (x : Mmdvm2020.TypeRepeaterConfiguration)
  deriving DecidableEq

/-- okdmr/kaitai/homebrew/mmdvm2020.py:154-161 attributes of `TypeRepeaterConfigurationOrClosing` (hand-written). -/
structure Mmdvm2020.TypeRepeaterConfigurationOrClosing where
  data : Mmdvm2020.TypeRepeaterConfigurationOrClosing.DataUnion
  deriving DecidableEq

/-- okdmr/kaitai/homebrew/mmdvm2020.py:358-367 property `fifth_letter` of the root object on its first access
(hand-written; the cache `_m_fifth_letter` on the root object is not recorded). -/
def Mmdvm2020.computeFifthLetter : Rd PyStr := do
  let pos ← posIo
  seekIo 4
  let v ← decodeWith decodeAscii (readBytes 1)
  seekIo pos
  return v

/-- okdmr/kaitai/homebrew/mmdvm2020.py:154-161 the `if _on == ...` chain of `Mmdvm2020.TypeRepeaterConfigurationOrClosing._read` (hand-written). -/
def Mmdvm2020.TypeRepeaterConfigurationOrClosing.readData (on : PyStr) : Rd (Mmdvm2020.TypeRepeaterConfigurationOrClosing.DataUnion) :=
  if on = "L".toList then do let x ← Mmdvm2020.TypeRepeaterClosing.read; return .typeRepeaterClosing x
  else do let x ← Mmdvm2020.TypeRepeaterConfiguration.read; return .typeRepeaterConfiguration x

/-- okdmr/kaitai/homebrew/mmdvm2020.py:154-161 `TypeRepeaterConfigurationOrClosing._read` (hand-written). -/
def Mmdvm2020.TypeRepeaterConfigurationOrClosing.read : Rd Mmdvm2020.TypeRepeaterConfigurationOrClosing := do
  let on ← Mmdvm2020.computeFifthLetter
  let data ← Mmdvm2020.TypeRepeaterConfigurationOrClosing.readData on
  return { data }
