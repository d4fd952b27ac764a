import Verif.Py.Syntax
/-
Generated by tools/mkpyast.py: okdmr/kaitai/motorola/motorola_binary_xml.py as data.
-/

set_option autoImplicit false

namespace Dmr.Py.Source.Motorola

/-- okdmr/kaitai/motorola/motorola_binary_xml.py:20-24 -/
def MotorolaBinaryXml.Docids : EnumDef where
  qualified := "Motorola.MotorolaBinaryXml.Docids"
  name := "Docids"
  members := [("lrrp_immediate_request", 4), ("lrrp_immediate_request_ncdt", 5), ("lrrp_immediate_response", 6), ("lrrp_immediate_response_ncdt", 7)]

/-- okdmr/kaitai/motorola/motorola_binary_xml.py:26-29 -/
def MotorolaBinaryXml.LrrpElements : EnumDef where
  qualified := "Motorola.MotorolaBinaryXml.LrrpElements"
  name := "LrrpElements"
  members := [("request_id_22_opaque", 34), ("request_id_23_opaque_1byte", 35), ("request_id_24_cdt_reference", 36)]

/-- okdmr/kaitai/motorola/motorola_binary_xml.py:47-55 -/
def MotorolaBinaryXml.LrrpImmediateRequestNcdt : ClassDef where
  name := "Motorola.MotorolaBinaryXml.LrrpImmediateRequestNcdt"
  methods := [("__init__", ⟨["self", "_io", "_parent", "_root"],
      [.setattr (.name "self") "_io" (.name "_io"),
       .setattr (.name "self") "_parent" (.name "_parent"),
       .setattr (.name "self") "_root" (.ifExp (.name "_root") (.name "_root") (.name "self")),
       .expr (.call (.attr (.name "self") "_read") [])]⟩),
    ("_read", ⟨["self"],
      [.setattr (.name "self") "elements" (.call (.cls "Motorola.MotorolaBinaryXml.LrrpElement") [.attr (.name "self") "_io", .name "self", .attr (.name "self") "_root"])]⟩)]
  properties := []

/-- okdmr/kaitai/motorola/motorola_binary_xml.py:57-65 -/
def MotorolaBinaryXml.Opaque3byteValue : ClassDef where
  name := "Motorola.MotorolaBinaryXml.Opaque3byteValue"
  methods := [("__init__", ⟨["self", "_io", "_parent", "_root"],
      [.setattr (.name "self") "_io" (.name "_io"),
       .setattr (.name "self") "_parent" (.name "_parent"),
       .setattr (.name "self") "_root" (.ifExp (.name "_root") (.name "_root") (.name "self")),
       .expr (.call (.attr (.name "self") "_read") [])]⟩),
    ("_read", ⟨["self"],
      [.setattr (.name "self") "value" (.call (.attr (.attr (.name "self") "_io") "read_bytes") [.int 3])]⟩)]
  properties := []

/-- okdmr/kaitai/motorola/motorola_binary_xml.py:67-90 -/
def MotorolaBinaryXml.LrrpElement : ClassDef where
  name := "Motorola.MotorolaBinaryXml.LrrpElement"
  methods := [("__init__", ⟨["self", "_io", "_parent", "_root"],
      [.setattr (.name "self") "_io" (.name "_io"),
       .setattr (.name "self") "_parent" (.name "_parent"),
       .setattr (.name "self") "_root" (.ifExp (.name "_root") (.name "_root") (.name "self")),
       .expr (.call (.attr (.name "self") "_read") [])]⟩),
    ("_read", ⟨["self"],
      [.setattr (.name "self") "lrrp_element_type" (.call (.attr (.global "KaitaiStream") "resolve_enum") [.enum "Motorola.MotorolaBinaryXml.LrrpElements", .call (.attr (.attr (.name "self") "_io") "read_u1") []]),
       .assign "_on" (.attr (.name "self") "lrrp_element_type"),
       .if_ (.cmp .eq (.name "_on") (.attr (.enum "Motorola.MotorolaBinaryXml.LrrpElements") "request_id_22_opaque"))
        [.setattr (.name "self") "lrrp_element_data" (.call (.cls "Motorola.MotorolaBinaryXml.OpaqueElementValue") [.attr (.name "self") "_io", .name "self", .attr (.name "self") "_root"])]
        [.if_ (.cmp .eq (.name "_on") (.attr (.enum "Motorola.MotorolaBinaryXml.LrrpElements") "request_id_23_opaque_1byte"))
          [.setattr (.name "self") "lrrp_element_data" (.call (.cls "Motorola.MotorolaBinaryXml.Opaque1byteValue") [.attr (.name "self") "_io", .name "self", .attr (.name "self") "_root"])]
          [.if_ (.cmp .eq (.name "_on") (.attr (.enum "Motorola.MotorolaBinaryXml.LrrpElements") "request_id_24_cdt_reference"))
            [.setattr (.name "self") "lrrp_element_data" (.call (.cls "Motorola.MotorolaBinaryXml.ConstantDataTableReference") [.attr (.name "self") "_io", .name "self", .attr (.name "self") "_root"])]
            []]]]⟩)]
  properties := []

/-- okdmr/kaitai/motorola/motorola_binary_xml.py:92-105 -/
def MotorolaBinaryXml.Sfloatvar : ClassDef where
  name := "Motorola.MotorolaBinaryXml.Sfloatvar"
  methods := [("__init__", ⟨["self", "_io", "_parent", "_root"],
      [.setattr (.name "self") "_io" (.name "_io"),
       .setattr (.name "self") "_parent" (.name "_parent"),
       .setattr (.name "self") "_root" (.ifExp (.name "_root") (.name "_root") (.name "self")),
       .expr (.call (.attr (.name "self") "_read") [])]⟩),
    ("_read", ⟨["self"],
      [.setattr (.name "self") "sint_payload" (.call (.cls "Motorola.MotorolaBinaryXml.Sintvar") [.attr (.name "self") "_io", .name "self", .attr (.name "self") "_root"]),
       .setattr (.name "self") "fraction_payload" (.call (.cls "Motorola.MotorolaBinaryXml.Uintvar") [.attr (.name "self") "_io", .name "self", .attr (.name "self") "_root"])]⟩)]
  properties := []

/-- okdmr/kaitai/motorola/motorola_binary_xml.py:107-115 -/
def MotorolaBinaryXml.Opaque5byteValue : ClassDef where
  name := "Motorola.MotorolaBinaryXml.Opaque5byteValue"
  methods := [("__init__", ⟨["self", "_io", "_parent", "_root"],
      [.setattr (.name "self") "_io" (.name "_io"),
       .setattr (.name "self") "_parent" (.name "_parent"),
       .setattr (.name "self") "_root" (.ifExp (.name "_root") (.name "_root") (.name "self")),
       .expr (.call (.attr (.name "self") "_read") [])]⟩),
    ("_read", ⟨["self"],
      [.setattr (.name "self") "value" (.call (.attr (.attr (.name "self") "_io") "read_bytes") [.int 5])]⟩)]
  properties := []

/-- okdmr/kaitai/motorola/motorola_binary_xml.py:117-125 -/
def MotorolaBinaryXml.Opaque1byteValue : ClassDef where
  name := "Motorola.MotorolaBinaryXml.Opaque1byteValue"
  methods := [("__init__", ⟨["self", "_io", "_parent", "_root"],
      [.setattr (.name "self") "_io" (.name "_io"),
       .setattr (.name "self") "_parent" (.name "_parent"),
       .setattr (.name "self") "_root" (.ifExp (.name "_root") (.name "_root") (.name "self")),
       .expr (.call (.attr (.name "self") "_read") [])]⟩),
    ("_read", ⟨["self"],
      [.setattr (.name "self") "value" (.call (.attr (.attr (.name "self") "_io") "read_bytes") [.int 1])]⟩)]
  properties := []

/-- okdmr/kaitai/motorola/motorola_binary_xml.py:127-146 -/
def MotorolaBinaryXml.Uintvar : ClassDef where
  name := "Motorola.MotorolaBinaryXml.Uintvar"
  methods := [("__init__", ⟨["self", "_io", "_parent", "_root"],
      [.setattr (.name "self") "_io" (.name "_io"),
       .setattr (.name "self") "_parent" (.name "_parent"),
       .setattr (.name "self") "_root" (.ifExp (.name "_root") (.name "_root") (.name "self")),
       .expr (.call (.attr (.name "self") "_read") [])]⟩),
    ("_read", ⟨["self"],
      [.setattr (.name "self") "payload" (.emptyList),
       .assign "i" (.int 0),
       .while_ (.bool true)
        [.assign "_" (.call (.attr (.attr (.name "self") "_io") "read_u1") []),
         .expr (.call (.attr (.attr (.name "self") "payload") "append") [.name "_"]),
         .if_ (.or (.cmp .eq (.bin .band (.name "_") (.int 128)) (.int 0)) (.call (.attr (.attr (.name "self") "_io") "is_eof") []))
          [.break_]
          [],
         .assign "i" (.bin .add (.name "i") (.int 1))]]⟩)]
  properties := []

/-- okdmr/kaitai/motorola/motorola_binary_xml.py:148-163 -/
def MotorolaBinaryXml.Ufloatvar : ClassDef where
  name := "Motorola.MotorolaBinaryXml.Ufloatvar"
  methods := [("__init__", ⟨["self", "_io", "_parent", "_root"],
      [.setattr (.name "self") "_io" (.name "_io"),
       .setattr (.name "self") "_parent" (.name "_parent"),
       .setattr (.name "self") "_root" (.ifExp (.name "_root") (.name "_root") (.name "self")),
       .expr (.call (.attr (.name "self") "_read") [])]⟩),
    ("_read", ⟨["self"],
      [.setattr (.name "self") "uint_payload" (.call (.cls "Motorola.MotorolaBinaryXml.Uintvar") [.attr (.name "self") "_io", .name "self", .attr (.name "self") "_root"]),
       .setattr (.name "self") "fraction_payload" (.call (.cls "Motorola.MotorolaBinaryXml.Uintvar") [.attr (.name "self") "_io", .name "self", .attr (.name "self") "_root"])]⟩)]
  properties := []

/-- okdmr/kaitai/motorola/motorola_binary_xml.py:165-175 -/
def MotorolaBinaryXml.ConstantDataTableReference : ClassDef where
  name := "Motorola.MotorolaBinaryXml.ConstantDataTableReference"
  methods := [("__init__", ⟨["self", "_io", "_parent", "_root"],
      [.setattr (.name "self") "_io" (.name "_io"),
       .setattr (.name "self") "_parent" (.name "_parent"),
       .setattr (.name "self") "_root" (.ifExp (.name "_root") (.name "_root") (.name "self")),
       .expr (.call (.attr (.name "self") "_read") [])]⟩),
    ("_read", ⟨["self"],
      [.setattr (.name "self") "byte_offset_from_cdt_start" (.call (.cls "Motorola.MotorolaBinaryXml.Uintvar") [.attr (.name "self") "_io", .name "self", .attr (.name "self") "_root"])]⟩)]
  properties := []

/-- okdmr/kaitai/motorola/motorola_binary_xml.py:177-197 -/
def MotorolaBinaryXml.MbxmlDocument : ClassDef where
  name := "Motorola.MotorolaBinaryXml.MbxmlDocument"
  methods := [("__init__", ⟨["self", "_io", "_parent", "_root"],
      [.setattr (.name "self") "_io" (.name "_io"),
       .setattr (.name "self") "_parent" (.name "_parent"),
       .setattr (.name "self") "_root" (.ifExp (.name "_root") (.name "_root") (.name "self")),
       .expr (.call (.attr (.name "self") "_read") [])]⟩),
    ("_read", ⟨["self"],
      [.setattr (.name "self") "document_id" (.call (.attr (.global "KaitaiStream") "resolve_enum") [.enum "Motorola.MotorolaBinaryXml.Docids", .call (.attr (.attr (.name "self") "_io") "read_u1") []]),
       .setattr (.name "self") "num_document_bytes" (.call (.cls "Motorola.MotorolaBinaryXml.Uintvar") [.attr (.name "self") "_io", .name "self", .attr (.name "self") "_root"]),
       .assign "_on" (.attr (.name "self") "document_id"),
       .if_ (.cmp .eq (.name "_on") (.attr (.enum "Motorola.MotorolaBinaryXml.Docids") "lrrp_immediate_request_ncdt"))
        [.setattr (.name "self") "document_data" (.call (.cls "Motorola.MotorolaBinaryXml.LrrpImmediateRequestNcdt") [.attr (.name "self") "_io", .name "self", .attr (.name "self") "_root"])]
        []]⟩)]
  properties := []

/-- okdmr/kaitai/motorola/motorola_binary_xml.py:199-208 -/
def MotorolaBinaryXml.OpaqueElementValue : ClassDef where
  name := "Motorola.MotorolaBinaryXml.OpaqueElementValue"
  methods := [("__init__", ⟨["self", "_io", "_parent", "_root"],
      [.setattr (.name "self") "_io" (.name "_io"),
       .setattr (.name "self") "_parent" (.name "_parent"),
       .setattr (.name "self") "_root" (.ifExp (.name "_root") (.name "_root") (.name "self")),
       .expr (.call (.attr (.name "self") "_read") [])]⟩),
    ("_read", ⟨["self"],
      [.setattr (.name "self") "len_value" (.call (.attr (.attr (.name "self") "_io") "read_u1") []),
       .setattr (.name "self") "value" (.call (.attr (.attr (.name "self") "_io") "read_bytes") [.attr (.name "self") "len_value"])]⟩)]
  properties := []

/-- okdmr/kaitai/motorola/motorola_binary_xml.py:210-218 -/
def MotorolaBinaryXml.Opaque2byteValue : ClassDef where
  name := "Motorola.MotorolaBinaryXml.Opaque2byteValue"
  methods := [("__init__", ⟨["self", "_io", "_parent", "_root"],
      [.setattr (.name "self") "_io" (.name "_io"),
       .setattr (.name "self") "_parent" (.name "_parent"),
       .setattr (.name "self") "_root" (.ifExp (.name "_root") (.name "_root") (.name "self")),
       .expr (.call (.attr (.name "self") "_read") [])]⟩),
    ("_read", ⟨["self"],
      [.setattr (.name "self") "value" (.call (.attr (.attr (.name "self") "_io") "read_bytes") [.int 2])]⟩)]
  properties := []

/-- okdmr/kaitai/motorola/motorola_binary_xml.py:220-240 -/
def MotorolaBinaryXml.Sintvar : ClassDef where
  name := "Motorola.MotorolaBinaryXml.Sintvar"
  methods := [("__init__", ⟨["self", "_io", "_parent", "_root"],
      [.setattr (.name "self") "_io" (.name "_io"),
       .setattr (.name "self") "_parent" (.name "_parent"),
       .setattr (.name "self") "_root" (.ifExp (.name "_root") (.name "_root") (.name "self")),
       .expr (.call (.attr (.name "self") "_read") [])]⟩),
    ("_read", ⟨["self"],
      [.setattr (.name "self") "payload" (.emptyList),
       .assign "i" (.int 0),
       .while_ (.bool true)
        [.assign "_" (.call (.attr (.attr (.name "self") "_io") "read_u1") []),
         .expr (.call (.attr (.attr (.name "self") "payload") "append") [.name "_"]),
         .if_ (.or (.cmp .eq (.bin .band (.name "_") (.int 128)) (.int 0)) (.call (.attr (.attr (.name "self") "_io") "is_eof") []))
          [.break_]
          [],
         .assign "i" (.bin .add (.name "i") (.int 1))]]⟩)]
  properties := []

/-- okdmr/kaitai/motorola/motorola_binary_xml.py:242-250 -/
def MotorolaBinaryXml.Opaque4byteValue : ClassDef where
  name := "Motorola.MotorolaBinaryXml.Opaque4byteValue"
  methods := [("__init__", ⟨["self", "_io", "_parent", "_root"],
      [.setattr (.name "self") "_io" (.name "_io"),
       .setattr (.name "self") "_parent" (.name "_parent"),
       .setattr (.name "self") "_root" (.ifExp (.name "_root") (.name "_root") (.name "self")),
       .expr (.call (.attr (.name "self") "_read") [])]⟩),
    ("_read", ⟨["self"],
      [.setattr (.name "self") "value" (.call (.attr (.attr (.name "self") "_io") "read_bytes") [.int 4])]⟩)]
  properties := []

/-- okdmr/kaitai/motorola/motorola_binary_xml.py:15-250 -/
def MotorolaBinaryXml : ClassDef where
  name := "Motorola.MotorolaBinaryXml"
  methods := [("__init__", ⟨["self", "_io", "_parent", "_root"],
      [.setattr (.name "self") "_io" (.name "_io"),
       .setattr (.name "self") "_parent" (.name "_parent"),
       .setattr (.name "self") "_root" (.ifExp (.name "_root") (.name "_root") (.name "self")),
       .expr (.call (.attr (.name "self") "_read") [])]⟩),
    ("_read", ⟨["self"],
      [.setattr (.name "self") "documents" (.emptyList),
       .assign "i" (.int 0),
       .while_ (.bool true)
        [.assign "_" (.call (.cls "Motorola.MotorolaBinaryXml.MbxmlDocument") [.attr (.name "self") "_io", .name "self", .attr (.name "self") "_root"]),
         .expr (.call (.attr (.attr (.name "self") "documents") "append") [.name "_"]),
         .if_ (.not (.call (.attr (.attr (.name "self") "_io") "is_eof") []))
          [.break_]
          [],
         .assign "i" (.bin .add (.name "i") (.int 1))]]⟩)]
  properties := []

/-- okdmr/kaitai/motorola/motorola_binary_xml.py -/
def MotorolaBinaryXml.file : File where
  classes := [MotorolaBinaryXml.LrrpImmediateRequestNcdt,
    MotorolaBinaryXml.Opaque3byteValue,
    MotorolaBinaryXml.LrrpElement,
    MotorolaBinaryXml.Sfloatvar,
    MotorolaBinaryXml.Opaque5byteValue,
    MotorolaBinaryXml.Opaque1byteValue,
    MotorolaBinaryXml.Uintvar,
    MotorolaBinaryXml.Ufloatvar,
    MotorolaBinaryXml.ConstantDataTableReference,
    MotorolaBinaryXml.MbxmlDocument,
    MotorolaBinaryXml.OpaqueElementValue,
    MotorolaBinaryXml.Opaque2byteValue,
    MotorolaBinaryXml.Sintvar,
    MotorolaBinaryXml.Opaque4byteValue,
    MotorolaBinaryXml]
  enums := [MotorolaBinaryXml.Docids,
    MotorolaBinaryXml.LrrpElements]

end Dmr.Py.Source.Motorola
