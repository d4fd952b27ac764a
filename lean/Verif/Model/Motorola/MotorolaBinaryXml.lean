import Verif.Runtime
/-
Model of okdmr/kaitai/motorola/motorola_binary_xml.py (generated by tools/py2lean.py from the Python AST;
definitions marked "hand-written" are not).
-/

namespace Dmr.Motorola

/-- okdmr/kaitai/motorola/motorola_binary_xml.py:20-24 `class Docids(Enum)`. -/
inductive MotorolaBinaryXml.Docids where
  | lrrp_immediate_request
  | lrrp_immediate_request_ncdt
  | lrrp_immediate_response
  | lrrp_immediate_response_ncdt
  deriving DecidableEq

/-- okdmr/kaitai/motorola/motorola_binary_xml.py:20-24 values of `Docids`. -/
def MotorolaBinaryXml.Docids.toNat : MotorolaBinaryXml.Docids → Nat
  | .lrrp_immediate_request => 4
  | .lrrp_immediate_request_ncdt => 5
  | .lrrp_immediate_response => 6
  | .lrrp_immediate_response_ncdt => 7

/-- okdmr/kaitai/motorola/motorola_binary_xml.py:20-24 `Docids` as a Python enumeration. -/
instance MotorolaBinaryXml.Docids.instPyEnum : PyEnum MotorolaBinaryXml.Docids where
  all := [.lrrp_immediate_request, .lrrp_immediate_request_ncdt, .lrrp_immediate_response, .lrrp_immediate_response_ncdt]
  value := MotorolaBinaryXml.Docids.toNat

/-- okdmr/kaitai/motorola/motorola_binary_xml.py:26-29 `class LrrpElements(Enum)`. -/
inductive MotorolaBinaryXml.LrrpElements where
  | request_id_22_opaque
  | request_id_23_opaque_1byte
  | request_id_24_cdt_reference
  deriving DecidableEq

/-- okdmr/kaitai/motorola/motorola_binary_xml.py:26-29 values of `LrrpElements`. -/
def MotorolaBinaryXml.LrrpElements.toNat : MotorolaBinaryXml.LrrpElements → Nat
  | .request_id_22_opaque => 34
  | .request_id_23_opaque_1byte => 35
  | .request_id_24_cdt_reference => 36

/-- okdmr/kaitai/motorola/motorola_binary_xml.py:26-29 `LrrpElements` as a Python enumeration. -/
instance MotorolaBinaryXml.LrrpElements.instPyEnum : PyEnum MotorolaBinaryXml.LrrpElements where
  all := [.request_id_22_opaque, .request_id_23_opaque_1byte, .request_id_24_cdt_reference]
  value := MotorolaBinaryXml.LrrpElements.toNat

/-- okdmr/kaitai/motorola/motorola_binary_xml.py:206-208 attributes of `MotorolaBinaryXml.OpaqueElementValue`. -/
structure MotorolaBinaryXml.OpaqueElementValue where
  len_value : Nat
  value : Bytes
  deriving DecidableEq

/-- okdmr/kaitai/motorola/motorola_binary_xml.py:206-208 `MotorolaBinaryXml.OpaqueElementValue._read`. -/
def MotorolaBinaryXml.OpaqueElementValue.read : Rd MotorolaBinaryXml.OpaqueElementValue := do
  let len_value ← readU1
  let value ← readBytes len_value
  return { len_value, value }

/-- okdmr/kaitai/motorola/motorola_binary_xml.py:124-125 attributes of `MotorolaBinaryXml.Opaque1byteValue`. -/
structure MotorolaBinaryXml.Opaque1byteValue where
  value : Bytes
  deriving DecidableEq

/-- okdmr/kaitai/motorola/motorola_binary_xml.py:124-125 `MotorolaBinaryXml.Opaque1byteValue._read`. -/
def MotorolaBinaryXml.Opaque1byteValue.read : Rd MotorolaBinaryXml.Opaque1byteValue := do
  let value ← readBytes 1
  return { value }

/-- okdmr/kaitai/motorola/motorola_binary_xml.py:138-146 attributes of `MotorolaBinaryXml.Uintvar`. -/
structure MotorolaBinaryXml.Uintvar where
  payload : List (Nat)
  deriving DecidableEq

/-- okdmr/kaitai/motorola/motorola_binary_xml.py:138-146 `MotorolaBinaryXml.Uintvar._read`. -/
def MotorolaBinaryXml.Uintvar.read : Rd MotorolaBinaryXml.Uintvar := do
  let fuel ← loopFuel
  let payload ← repeatUntil fuel (readU1) (fun x => do let eof1 ← isEof; return (decide ((x &&& 128) = 0)) || (eof1))
  return { payload }

/-- okdmr/kaitai/motorola/motorola_binary_xml.py:172-175 attributes of `MotorolaBinaryXml.ConstantDataTableReference`. -/
structure MotorolaBinaryXml.ConstantDataTableReference where
  byte_offset_from_cdt_start : MotorolaBinaryXml.Uintvar
  deriving DecidableEq

/-- okdmr/kaitai/motorola/motorola_binary_xml.py:172-175 `MotorolaBinaryXml.ConstantDataTableReference._read`. -/
def MotorolaBinaryXml.ConstantDataTableReference.read : Rd MotorolaBinaryXml.ConstantDataTableReference := do
  let byte_offset_from_cdt_start ← MotorolaBinaryXml.Uintvar.read
  return { byte_offset_from_cdt_start }

/-- okdmr/kaitai/motorola/motorola_binary_xml.py:80-90 possible objects in `MotorolaBinaryXml.LrrpElement.lrrp_element_data`. -/
inductive MotorolaBinaryXml.LrrpElement.LrrpElementDataUnion where
  | opaqueElementValue (x : MotorolaBinaryXml.OpaqueElementValue)
  | opaque1byteValue (x : MotorolaBinaryXml.Opaque1byteValue)
  | constantDataTableReference (x : MotorolaBinaryXml.ConstantDataTableReference)
  deriving DecidableEq

/-- okdmr/kaitai/motorola/motorola_binary_xml.py:79-90 the `if _on == ...` chain of `MotorolaBinaryXml.LrrpElement._read`. -/
def MotorolaBinaryXml.LrrpElement.readLrrpElementData (on : EnumVal MotorolaBinaryXml.LrrpElements) : Rd (Option MotorolaBinaryXml.LrrpElement.LrrpElementDataUnion) :=
  if on = .known .request_id_22_opaque then do let x ← MotorolaBinaryXml.OpaqueElementValue.read; return some (.opaqueElementValue x)
  else if on = .known .request_id_23_opaque_1byte then do let x ← MotorolaBinaryXml.Opaque1byteValue.read; return some (.opaque1byteValue x)
  else if on = .known .request_id_24_cdt_reference then do let x ← MotorolaBinaryXml.ConstantDataTableReference.read; return some (.constantDataTableReference x)
  else return none

/-- okdmr/kaitai/motorola/motorola_binary_xml.py:74-90 attributes of `MotorolaBinaryXml.LrrpElement`. -/
structure MotorolaBinaryXml.LrrpElement where
  lrrp_element_type : EnumVal MotorolaBinaryXml.LrrpElements
  lrrp_element_data : Option MotorolaBinaryXml.LrrpElement.LrrpElementDataUnion
  deriving DecidableEq

/-- okdmr/kaitai/motorola/motorola_binary_xml.py:74-90 `MotorolaBinaryXml.LrrpElement._read`. -/
def MotorolaBinaryXml.LrrpElement.read : Rd MotorolaBinaryXml.LrrpElement := do
  let lrrp_element_type ← asEnum MotorolaBinaryXml.LrrpElements (readU1)
  let lrrp_element_data ← MotorolaBinaryXml.LrrpElement.readLrrpElementData lrrp_element_type
  return { lrrp_element_type, lrrp_element_data }

/-- okdmr/kaitai/motorola/motorola_binary_xml.py:54-55 attributes of `MotorolaBinaryXml.LrrpImmediateRequestNcdt`. -/
structure MotorolaBinaryXml.LrrpImmediateRequestNcdt where
  elements : MotorolaBinaryXml.LrrpElement
  deriving DecidableEq

/-- okdmr/kaitai/motorola/motorola_binary_xml.py:54-55 `MotorolaBinaryXml.LrrpImmediateRequestNcdt._read`. -/
def MotorolaBinaryXml.LrrpImmediateRequestNcdt.read : Rd MotorolaBinaryXml.LrrpImmediateRequestNcdt := do
  let elements ← MotorolaBinaryXml.LrrpElement.read
  return { elements }

/-- okdmr/kaitai/motorola/motorola_binary_xml.py:64-65 attributes of `MotorolaBinaryXml.Opaque3byteValue`. -/
structure MotorolaBinaryXml.Opaque3byteValue where
  value : Bytes
  deriving DecidableEq

/-- okdmr/kaitai/motorola/motorola_binary_xml.py:64-65 `MotorolaBinaryXml.Opaque3byteValue._read`. -/
def MotorolaBinaryXml.Opaque3byteValue.read : Rd MotorolaBinaryXml.Opaque3byteValue := do
  let value ← readBytes 3
  return { value }

/-- okdmr/kaitai/motorola/motorola_binary_xml.py:232-240 attributes of `MotorolaBinaryXml.Sintvar`. -/
structure MotorolaBinaryXml.Sintvar where
  payload : List (Nat)
  deriving DecidableEq

/-- okdmr/kaitai/motorola/motorola_binary_xml.py:232-240 `MotorolaBinaryXml.Sintvar._read`. -/
def MotorolaBinaryXml.Sintvar.read : Rd MotorolaBinaryXml.Sintvar := do
  let fuel ← loopFuel
  let payload ← repeatUntil fuel (readU1) (fun x => do let eof1 ← isEof; return (decide ((x &&& 128) = 0)) || (eof1))
  return { payload }

/-- okdmr/kaitai/motorola/motorola_binary_xml.py:101-105 attributes of `MotorolaBinaryXml.Sfloatvar`. -/
structure MotorolaBinaryXml.Sfloatvar where
  sint_payload : MotorolaBinaryXml.Sintvar
  fraction_payload : MotorolaBinaryXml.Uintvar
  deriving DecidableEq

/-- okdmr/kaitai/motorola/motorola_binary_xml.py:101-105 `MotorolaBinaryXml.Sfloatvar._read`. -/
def MotorolaBinaryXml.Sfloatvar.read : Rd MotorolaBinaryXml.Sfloatvar := do
  let sint_payload ← MotorolaBinaryXml.Sintvar.read
  let fraction_payload ← MotorolaBinaryXml.Uintvar.read
  return { sint_payload, fraction_payload }

/-- okdmr/kaitai/motorola/motorola_binary_xml.py:114-115 attributes of `MotorolaBinaryXml.Opaque5byteValue`. -/
structure MotorolaBinaryXml.Opaque5byteValue where
  value : Bytes
  deriving DecidableEq

/-- okdmr/kaitai/motorola/motorola_binary_xml.py:114-115 `MotorolaBinaryXml.Opaque5byteValue._read`. -/
def MotorolaBinaryXml.Opaque5byteValue.read : Rd MotorolaBinaryXml.Opaque5byteValue := do
  let value ← readBytes 5
  return { value }

/-- okdmr/kaitai/motorola/motorola_binary_xml.py:159-163 attributes of `MotorolaBinaryXml.Ufloatvar`. -/
structure MotorolaBinaryXml.Ufloatvar where
  uint_payload : MotorolaBinaryXml.Uintvar
  fraction_payload : MotorolaBinaryXml.Uintvar
  deriving DecidableEq

/-- okdmr/kaitai/motorola/motorola_binary_xml.py:159-163 `MotorolaBinaryXml.Ufloatvar._read`. -/
def MotorolaBinaryXml.Ufloatvar.read : Rd MotorolaBinaryXml.Ufloatvar := do
  let uint_payload ← MotorolaBinaryXml.Uintvar.read
  let fraction_payload ← MotorolaBinaryXml.Uintvar.read
  return { uint_payload, fraction_payload }

/-- okdmr/kaitai/motorola/motorola_binary_xml.py:195-197 possible objects in `MotorolaBinaryXml.MbxmlDocument.document_data`. -/
inductive MotorolaBinaryXml.MbxmlDocument.DocumentDataUnion where
  | lrrpImmediateRequestNcdt (x : MotorolaBinaryXml.LrrpImmediateRequestNcdt)
  deriving DecidableEq

/-- okdmr/kaitai/motorola/motorola_binary_xml.py:194-197 the `if _on == ...` chain of `MotorolaBinaryXml.MbxmlDocument._read`. -/
def MotorolaBinaryXml.MbxmlDocument.readDocumentData (on : EnumVal MotorolaBinaryXml.Docids) : Rd (Option MotorolaBinaryXml.MbxmlDocument.DocumentDataUnion) :=
  if on = .known .lrrp_immediate_request_ncdt then do let x ← MotorolaBinaryXml.LrrpImmediateRequestNcdt.read; return some (.lrrpImmediateRequestNcdt x)
  else return none

/-- okdmr/kaitai/motorola/motorola_binary_xml.py:186-197 attributes of `MotorolaBinaryXml.MbxmlDocument`. -/
structure MotorolaBinaryXml.MbxmlDocument where
  document_id : EnumVal MotorolaBinaryXml.Docids
  num_document_bytes : MotorolaBinaryXml.Uintvar
  document_data : Option MotorolaBinaryXml.MbxmlDocument.DocumentDataUnion
  deriving DecidableEq

/-- okdmr/kaitai/motorola/motorola_binary_xml.py:186-197 `MotorolaBinaryXml.MbxmlDocument._read`. -/
def MotorolaBinaryXml.MbxmlDocument.read : Rd MotorolaBinaryXml.MbxmlDocument := do
  let document_id ← asEnum MotorolaBinaryXml.Docids (readU1)
  let num_document_bytes ← MotorolaBinaryXml.Uintvar.read
  let document_data ← MotorolaBinaryXml.MbxmlDocument.readDocumentData document_id
  return { document_id, num_document_bytes, document_data }

/-- okdmr/kaitai/motorola/motorola_binary_xml.py:217-218 attributes of `MotorolaBinaryXml.Opaque2byteValue`. -/
structure MotorolaBinaryXml.Opaque2byteValue where
  value : Bytes
  deriving DecidableEq

/-- okdmr/kaitai/motorola/motorola_binary_xml.py:217-218 `MotorolaBinaryXml.Opaque2byteValue._read`. -/
def MotorolaBinaryXml.Opaque2byteValue.read : Rd MotorolaBinaryXml.Opaque2byteValue := do
  let value ← readBytes 2
  return { value }

/-- okdmr/kaitai/motorola/motorola_binary_xml.py:249-250 attributes of `MotorolaBinaryXml.Opaque4byteValue`. -/
structure MotorolaBinaryXml.Opaque4byteValue where
  value : Bytes
  deriving DecidableEq

/-- okdmr/kaitai/motorola/motorola_binary_xml.py:249-250 `MotorolaBinaryXml.Opaque4byteValue._read`. -/
def MotorolaBinaryXml.Opaque4byteValue.read : Rd MotorolaBinaryXml.Opaque4byteValue := do
  let value ← readBytes 4
  return { value }

/-- okdmr/kaitai/motorola/motorola_binary_xml.py:37-45 attributes of `MotorolaBinaryXml`. -/
structure MotorolaBinaryXml where
  documents : List (MotorolaBinaryXml.MbxmlDocument)
  deriving DecidableEq

/-- okdmr/kaitai/motorola/motorola_binary_xml.py:37-45 `MotorolaBinaryXml._read`. -/
def MotorolaBinaryXml.read : Rd MotorolaBinaryXml := do
  let fuel ← loopFuel
  let documents ← repeatUntil fuel (MotorolaBinaryXml.MbxmlDocument.read) (fun _ => do let eof1 ← isEof; return !(eof1))
  return { documents }

end Dmr.Motorola
