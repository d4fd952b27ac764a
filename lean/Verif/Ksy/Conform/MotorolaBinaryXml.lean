import Verif.Ksy.Conform.Base
/-
Generated by tools/mkconform.py: the schema of `MotorolaBinaryXml` against the model of the Python classes.
-/

set_option linter.unusedSimpArgs false
set_option maxHeartbeats 1000000

namespace Dmr.Ksy.Motorola

@[ksy] theorem resolve_MotorolaBinaryXml_Docids (v : Nat) : Motorola.MotorolaBinaryXml.Docids.resolve v = EnumVal.toPy "Docids" (resolveEnum Dmr.Motorola.MotorolaBinaryXml.Docids v) :=
  resolve_eq _ (by decide) v

@[ksy ↓] theorem read_MotorolaBinaryXml_Docids_u1 (ev sub) : readTy ev sub (.primEnum .u1 Motorola.MotorolaBinaryXml.Docids) =
    asEnum Dmr.Motorola.MotorolaBinaryXml.Docids readU1 >>= fun e => pure (some (EnumVal.toPy "Docids" e)) :=
  enum_prim resolve_MotorolaBinaryXml_Docids .u1 readU1 rfl ev sub

@[ksy] theorem member_MotorolaBinaryXml_Docids_lrrp_immediate_request_ncdt : Motorola.MotorolaBinaryXml.Docids.member "lrrp_immediate_request_ncdt" = pure (.enum "Docids" 5) := rfl

@[ksy] theorem same_MotorolaBinaryXml_Docids_lrrp_immediate_request_ncdt (on : EnumVal Dmr.Motorola.MotorolaBinaryXml.Docids) :
    same (EnumVal.toPy "Docids" on) (.enum "Docids" 5) = decide (on = .known .lrrp_immediate_request_ncdt) :=
  same_known _ _ Dmr.Motorola.MotorolaBinaryXml.Docids.lrrp_immediate_request_ncdt

@[ksy] theorem resolve_MotorolaBinaryXml_LrrpElements (v : Nat) : Motorola.MotorolaBinaryXml.LrrpElements.resolve v = EnumVal.toPy "LrrpElements" (resolveEnum Dmr.Motorola.MotorolaBinaryXml.LrrpElements v) :=
  resolve_eq _ (by decide) v

@[ksy ↓] theorem read_MotorolaBinaryXml_LrrpElements_u1 (ev sub) : readTy ev sub (.primEnum .u1 Motorola.MotorolaBinaryXml.LrrpElements) =
    asEnum Dmr.Motorola.MotorolaBinaryXml.LrrpElements readU1 >>= fun e => pure (some (EnumVal.toPy "LrrpElements" e)) :=
  enum_prim resolve_MotorolaBinaryXml_LrrpElements .u1 readU1 rfl ev sub

@[ksy] theorem member_MotorolaBinaryXml_LrrpElements_request_id_22_opaque : Motorola.MotorolaBinaryXml.LrrpElements.member "request_id_22_opaque" = pure (.enum "LrrpElements" 34) := rfl

@[ksy] theorem same_MotorolaBinaryXml_LrrpElements_request_id_22_opaque (on : EnumVal Dmr.Motorola.MotorolaBinaryXml.LrrpElements) :
    same (EnumVal.toPy "LrrpElements" on) (.enum "LrrpElements" 34) = decide (on = .known .request_id_22_opaque) :=
  same_known _ _ Dmr.Motorola.MotorolaBinaryXml.LrrpElements.request_id_22_opaque

@[ksy] theorem member_MotorolaBinaryXml_LrrpElements_request_id_23_opaque_1byte : Motorola.MotorolaBinaryXml.LrrpElements.member "request_id_23_opaque_1byte" = pure (.enum "LrrpElements" 35) := rfl

@[ksy] theorem same_MotorolaBinaryXml_LrrpElements_request_id_23_opaque_1byte (on : EnumVal Dmr.Motorola.MotorolaBinaryXml.LrrpElements) :
    same (EnumVal.toPy "LrrpElements" on) (.enum "LrrpElements" 35) = decide (on = .known .request_id_23_opaque_1byte) :=
  same_known _ _ Dmr.Motorola.MotorolaBinaryXml.LrrpElements.request_id_23_opaque_1byte

@[ksy] theorem member_MotorolaBinaryXml_LrrpElements_request_id_24_cdt_reference : Motorola.MotorolaBinaryXml.LrrpElements.member "request_id_24_cdt_reference" = pure (.enum "LrrpElements" 36) := rfl

@[ksy] theorem same_MotorolaBinaryXml_LrrpElements_request_id_24_cdt_reference (on : EnumVal Dmr.Motorola.MotorolaBinaryXml.LrrpElements) :
    same (EnumVal.toPy "LrrpElements" on) (.enum "LrrpElements" 36) = decide (on = .known .request_id_24_cdt_reference) :=
  same_known _ _ Dmr.Motorola.MotorolaBinaryXml.LrrpElements.request_id_24_cdt_reference

/-- okdmr/kaitai/motorola/motorola_binary_xml.ksy type `uintvar` against `Dmr.Motorola.MotorolaBinaryXml.Uintvar`. -/
@[ksy ↓] theorem MotorolaBinaryXml_Uintvar_conforms (n : Nat) (sc : Scope) :
    parse (n + 1) sc Motorola.MotorolaBinaryXml.Uintvar =
      (fun x => view (Dmr.Motorola.MotorolaBinaryXml.Uintvar.toPy x)) <$> Dmr.Motorola.MotorolaBinaryXml.Uintvar.read := by
  rw [parse_succ]
  ksy_simp [Dmr.Motorola.MotorolaBinaryXml.Uintvar.read, Dmr.Motorola.MotorolaBinaryXml.Uintvar.toPy, same_cast_0]

/-- okdmr/kaitai/motorola/motorola_binary_xml.ksy type `sintvar` against `Dmr.Motorola.MotorolaBinaryXml.Sintvar`. -/
@[ksy ↓] theorem MotorolaBinaryXml_Sintvar_conforms (n : Nat) (sc : Scope) :
    parse (n + 1) sc Motorola.MotorolaBinaryXml.Sintvar =
      (fun x => view (Dmr.Motorola.MotorolaBinaryXml.Sintvar.toPy x)) <$> Dmr.Motorola.MotorolaBinaryXml.Sintvar.read := by
  rw [parse_succ]
  ksy_simp [Dmr.Motorola.MotorolaBinaryXml.Sintvar.read, Dmr.Motorola.MotorolaBinaryXml.Sintvar.toPy, same_cast_0]

/-- okdmr/kaitai/motorola/motorola_binary_xml.ksy:38-45 against `Dmr.Motorola.MotorolaBinaryXml.Ufloatvar`. -/
@[ksy ↓] theorem MotorolaBinaryXml_Ufloatvar_conforms (n : Nat) (sc : Scope) :
    parse (n + 2) sc Motorola.MotorolaBinaryXml.Ufloatvar = (fun x => view (Dmr.Motorola.MotorolaBinaryXml.Ufloatvar.toPy x)) <$> Dmr.Motorola.MotorolaBinaryXml.Ufloatvar.read := by
  rw [parse_succ]
  ksy_simp [Dmr.Motorola.MotorolaBinaryXml.Ufloatvar.read, Dmr.Motorola.MotorolaBinaryXml.Ufloatvar.toPy]

/-- okdmr/kaitai/motorola/motorola_binary_xml.ksy:47-53 against `Dmr.Motorola.MotorolaBinaryXml.Sfloatvar`. -/
@[ksy ↓] theorem MotorolaBinaryXml_Sfloatvar_conforms (n : Nat) (sc : Scope) :
    parse (n + 2) sc Motorola.MotorolaBinaryXml.Sfloatvar = (fun x => view (Dmr.Motorola.MotorolaBinaryXml.Sfloatvar.toPy x)) <$> Dmr.Motorola.MotorolaBinaryXml.Sfloatvar.read := by
  rw [parse_succ]
  ksy_simp [Dmr.Motorola.MotorolaBinaryXml.Sfloatvar.read, Dmr.Motorola.MotorolaBinaryXml.Sfloatvar.toPy]

/-- okdmr/kaitai/motorola/motorola_binary_xml.ksy:55-59 against `Dmr.Motorola.MotorolaBinaryXml.OpaqueElementValue`. -/
@[ksy ↓] theorem MotorolaBinaryXml_OpaqueElementValue_conforms (n : Nat) (sc : Scope) :
    parse (n + 1) sc Motorola.MotorolaBinaryXml.OpaqueElementValue = (fun x => view (Dmr.Motorola.MotorolaBinaryXml.OpaqueElementValue.toPy x)) <$> Dmr.Motorola.MotorolaBinaryXml.OpaqueElementValue.read := by
  rw [parse_succ]
  ksy_simp [Dmr.Motorola.MotorolaBinaryXml.OpaqueElementValue.read, Dmr.Motorola.MotorolaBinaryXml.OpaqueElementValue.toPy]

/-- okdmr/kaitai/motorola/motorola_binary_xml.ksy:61-63 against `Dmr.Motorola.MotorolaBinaryXml.Opaque1byteValue`. -/
@[ksy ↓] theorem MotorolaBinaryXml_Opaque1byteValue_conforms (n : Nat) (sc : Scope) :
    parse (n + 1) sc Motorola.MotorolaBinaryXml.Opaque1byteValue = (fun x => view (Dmr.Motorola.MotorolaBinaryXml.Opaque1byteValue.toPy x)) <$> Dmr.Motorola.MotorolaBinaryXml.Opaque1byteValue.read := by
  rw [parse_succ]
  ksy_simp [Dmr.Motorola.MotorolaBinaryXml.Opaque1byteValue.read, Dmr.Motorola.MotorolaBinaryXml.Opaque1byteValue.toPy]

/-- okdmr/kaitai/motorola/motorola_binary_xml.ksy:65-67 against `Dmr.Motorola.MotorolaBinaryXml.Opaque2byteValue`. -/
@[ksy ↓] theorem MotorolaBinaryXml_Opaque2byteValue_conforms (n : Nat) (sc : Scope) :
    parse (n + 1) sc Motorola.MotorolaBinaryXml.Opaque2byteValue = (fun x => view (Dmr.Motorola.MotorolaBinaryXml.Opaque2byteValue.toPy x)) <$> Dmr.Motorola.MotorolaBinaryXml.Opaque2byteValue.read := by
  rw [parse_succ]
  ksy_simp [Dmr.Motorola.MotorolaBinaryXml.Opaque2byteValue.read, Dmr.Motorola.MotorolaBinaryXml.Opaque2byteValue.toPy]

/-- okdmr/kaitai/motorola/motorola_binary_xml.ksy:69-71 against `Dmr.Motorola.MotorolaBinaryXml.Opaque3byteValue`. -/
@[ksy ↓] theorem MotorolaBinaryXml_Opaque3byteValue_conforms (n : Nat) (sc : Scope) :
    parse (n + 1) sc Motorola.MotorolaBinaryXml.Opaque3byteValue = (fun x => view (Dmr.Motorola.MotorolaBinaryXml.Opaque3byteValue.toPy x)) <$> Dmr.Motorola.MotorolaBinaryXml.Opaque3byteValue.read := by
  rw [parse_succ]
  ksy_simp [Dmr.Motorola.MotorolaBinaryXml.Opaque3byteValue.read, Dmr.Motorola.MotorolaBinaryXml.Opaque3byteValue.toPy]

/-- okdmr/kaitai/motorola/motorola_binary_xml.ksy:73-75 against `Dmr.Motorola.MotorolaBinaryXml.Opaque4byteValue`. -/
@[ksy ↓] theorem MotorolaBinaryXml_Opaque4byteValue_conforms (n : Nat) (sc : Scope) :
    parse (n + 1) sc Motorola.MotorolaBinaryXml.Opaque4byteValue = (fun x => view (Dmr.Motorola.MotorolaBinaryXml.Opaque4byteValue.toPy x)) <$> Dmr.Motorola.MotorolaBinaryXml.Opaque4byteValue.read := by
  rw [parse_succ]
  ksy_simp [Dmr.Motorola.MotorolaBinaryXml.Opaque4byteValue.read, Dmr.Motorola.MotorolaBinaryXml.Opaque4byteValue.toPy]

/-- okdmr/kaitai/motorola/motorola_binary_xml.ksy:77-79 against `Dmr.Motorola.MotorolaBinaryXml.Opaque5byteValue`. -/
@[ksy ↓] theorem MotorolaBinaryXml_Opaque5byteValue_conforms (n : Nat) (sc : Scope) :
    parse (n + 1) sc Motorola.MotorolaBinaryXml.Opaque5byteValue = (fun x => view (Dmr.Motorola.MotorolaBinaryXml.Opaque5byteValue.toPy x)) <$> Dmr.Motorola.MotorolaBinaryXml.Opaque5byteValue.read := by
  rw [parse_succ]
  ksy_simp [Dmr.Motorola.MotorolaBinaryXml.Opaque5byteValue.read, Dmr.Motorola.MotorolaBinaryXml.Opaque5byteValue.toPy]

/-- okdmr/kaitai/motorola/motorola_binary_xml.ksy:81-83 against `Dmr.Motorola.MotorolaBinaryXml.ConstantDataTableReference`. -/
@[ksy ↓] theorem MotorolaBinaryXml_ConstantDataTableReference_conforms (n : Nat) (sc : Scope) :
    parse (n + 2) sc Motorola.MotorolaBinaryXml.ConstantDataTableReference = (fun x => view (Dmr.Motorola.MotorolaBinaryXml.ConstantDataTableReference.toPy x)) <$> Dmr.Motorola.MotorolaBinaryXml.ConstantDataTableReference.read := by
  rw [parse_succ]
  ksy_simp [Dmr.Motorola.MotorolaBinaryXml.ConstantDataTableReference.read, Dmr.Motorola.MotorolaBinaryXml.ConstantDataTableReference.toPy]

/-- okdmr/kaitai/motorola/motorola_binary_xml.ksy:85-95 against `Dmr.Motorola.MotorolaBinaryXml.LrrpElement`. -/
@[ksy ↓] theorem MotorolaBinaryXml_LrrpElement_conforms (n : Nat) (sc : Scope) :
    parse (n + 3) sc Motorola.MotorolaBinaryXml.LrrpElement = (fun x => view (Dmr.Motorola.MotorolaBinaryXml.LrrpElement.toPy x)) <$> Dmr.Motorola.MotorolaBinaryXml.LrrpElement.read := by
  rw [parse_succ]
  ksy_simp [Dmr.Motorola.MotorolaBinaryXml.LrrpElement.read, Dmr.Motorola.MotorolaBinaryXml.LrrpElement.toPy]
  ksy_switch Dmr.Motorola.MotorolaBinaryXml.LrrpElement.readLrrpElementData Dmr.Motorola.MotorolaBinaryXml.LrrpElement.LrrpElementDataUnion.toPy Dmr.Motorola.MotorolaBinaryXml.LrrpElements

/-- okdmr/kaitai/motorola/motorola_binary_xml.ksy:97-99 against `Dmr.Motorola.MotorolaBinaryXml.LrrpImmediateRequestNcdt`. -/
@[ksy ↓] theorem MotorolaBinaryXml_LrrpImmediateRequestNcdt_conforms (n : Nat) (sc : Scope) :
    parse (n + 4) sc Motorola.MotorolaBinaryXml.LrrpImmediateRequestNcdt = (fun x => view (Dmr.Motorola.MotorolaBinaryXml.LrrpImmediateRequestNcdt.toPy x)) <$> Dmr.Motorola.MotorolaBinaryXml.LrrpImmediateRequestNcdt.read := by
  rw [parse_succ]
  ksy_simp [Dmr.Motorola.MotorolaBinaryXml.LrrpImmediateRequestNcdt.read, Dmr.Motorola.MotorolaBinaryXml.LrrpImmediateRequestNcdt.toPy]

/-- okdmr/kaitai/motorola/motorola_binary_xml.ksy:101-116 against `Dmr.Motorola.MotorolaBinaryXml.MbxmlDocument`. -/
@[ksy ↓] theorem MotorolaBinaryXml_MbxmlDocument_conforms (n : Nat) (sc : Scope) :
    parse (n + 5) sc Motorola.MotorolaBinaryXml.MbxmlDocument = (fun x => view (Dmr.Motorola.MotorolaBinaryXml.MbxmlDocument.toPy x)) <$> Dmr.Motorola.MotorolaBinaryXml.MbxmlDocument.read := by
  rw [parse_succ]
  ksy_simp [Dmr.Motorola.MotorolaBinaryXml.MbxmlDocument.read, Dmr.Motorola.MotorolaBinaryXml.MbxmlDocument.toPy]
  ksy_switch Dmr.Motorola.MotorolaBinaryXml.MbxmlDocument.readDocumentData Dmr.Motorola.MotorolaBinaryXml.MbxmlDocument.DocumentDataUnion.toPy Dmr.Motorola.MotorolaBinaryXml.Docids

/-- okdmr/kaitai/motorola/motorola_binary_xml.ksy:1-121 against `Dmr.Motorola.MotorolaBinaryXml`. -/
@[ksy ↓] theorem MotorolaBinaryXml_conforms (n : Nat) (sc : Scope) :
    parse (n + 6) sc Motorola.MotorolaBinaryXml = (fun x => view (Dmr.Motorola.MotorolaBinaryXml.toPy x)) <$> Dmr.Motorola.MotorolaBinaryXml.read := by
  rw [parse_succ]
  ksy_simp [Dmr.Motorola.MotorolaBinaryXml.read, Dmr.Motorola.MotorolaBinaryXml.toPy]

end Dmr.Ksy.Motorola
