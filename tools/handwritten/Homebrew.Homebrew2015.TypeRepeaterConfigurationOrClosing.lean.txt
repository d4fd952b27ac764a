/-- okdmr/kaitai/homebrew/homebrew2015.py:117-124 possible objects in `TypeRepeaterConfigurationOrClosing.data`. -/
inductive Homebrew2015.TypeRepeaterConfigurationOrClosing.DataUnion where
  | typeRepeaterClosing (x : Homebrew2015.TypeRepeaterClosing)
  | typeRepeaterConfiguration (x : Homebrew2015.TypeRepeaterConfiguration)
  deriving DecidableEq

/-- okdmr/kaitai/homebrew/homebrew2015.py:117-124 attributes of `TypeRepeaterConfigurationOrClosing` (hand-written). -/
structure Homebrew2015.TypeRepeaterConfigurationOrClosing where
  data : Homebrew2015.TypeRepeaterConfigurationOrClosing.DataUnion
  deriving DecidableEq

/-- okdmr/kaitai/homebrew/homebrew2015.py:282-291 property `fifth_letter` of the root object on its first access
(hand-written; the cache `_m_fifth_letter` on the root object is not recorded). -/
def Homebrew2015.computeFifthLetter : Rd PyStr := do
  let pos ← posIo
  seekIo 4
  let v ← decodeWith decodeAscii (readBytes 1)
  seekIo pos
  return v

/-- okdmr/kaitai/homebrew/homebrew2015.py:117-124 the `if _on == ...` chain of `Homebrew2015.TypeRepeaterConfigurationOrClosing._read` (hand-written). -/
def Homebrew2015.TypeRepeaterConfigurationOrClosing.readData (on : PyStr) : Rd (Homebrew2015.TypeRepeaterConfigurationOrClosing.DataUnion) :=
  if on = "L".toList then do let x ← Homebrew2015.TypeRepeaterClosing.read; return .typeRepeaterClosing x
  else do let x ← Homebrew2015.TypeRepeaterConfiguration.read; return .typeRepeaterConfiguration x

/-- okdmr/kaitai/homebrew/homebrew2015.py:117-124 `TypeRepeaterConfigurationOrClosing._read` (hand-written). -/
def Homebrew2015.TypeRepeaterConfigurationOrClosing.read : Rd Homebrew2015.TypeRepeaterConfigurationOrClosing := do
  let on ← Homebrew2015.computeFifthLetter
  let data ← Homebrew2015.TypeRepeaterConfigurationOrClosing.readData on
  return { data }
