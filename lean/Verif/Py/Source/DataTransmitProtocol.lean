import Verif.Py.Syntax
/-
Generated by tools/mkpyast.py: okdmr/kaitai/hytera/data_transmit_protocol.py as data.
-/

set_option autoImplicit false

namespace Dmr.Py.Source.Hytera

/-- okdmr/kaitai/hytera/data_transmit_protocol.py:19-20 -/
def DataTransmitProtocol.ServiceTypes : EnumDef where
  qualified := "Hytera.DataTransmitProtocol.ServiceTypes"
  name := "ServiceTypes"
  members := [("data_transmit_protocol", 160)]

/-- okdmr/kaitai/hytera/data_transmit_protocol.py:22-28 -/
def DataTransmitProtocol.ServiceSpecificTypes : EnumDef where
  qualified := "Hytera.DataTransmitProtocol.ServiceSpecificTypes"
  name := "ServiceSpecificTypes"
  members := [("dtp_request", 1), ("data_slice_transmit", 2), ("last_data_slice", 3), ("dtp_answer", 17), ("data_slice_answer", 18), ("last_data_slice_answer", 19)]

/-- okdmr/kaitai/hytera/data_transmit_protocol.py:30-32 -/
def DataTransmitProtocol.Results : EnumDef where
  qualified := "Hytera.DataTransmitProtocol.Results"
  name := "Results"
  members := [("success", 0), ("failure", 1)]

/-- okdmr/kaitai/hytera/data_transmit_protocol.py:66-77 -/
def DataTransmitProtocol.LastDataSlice : ClassDef where
  name := "Hytera.DataTransmitProtocol.LastDataSlice"
  methods := [("__init__", ⟨["self", "_io", "_parent", "_root"],
      [.setattr (.name "self") "_io" (.name "_io"),
       .setattr (.name "self") "_parent" (.name "_parent"),
       .setattr (.name "self") "_root" (.ifExp (.name "_root") (.name "_root") (.name "self")),
       .expr (.call (.attr (.name "self") "_read") [])]⟩),
    ("_read", ⟨["self"],
      [.setattr (.name "self") "destination_ip" (.call (.cls "Hytera.RadioIp") [.attr (.name "self") "_io"]),
       .setattr (.name "self") "source_ip" (.call (.cls "Hytera.RadioIp") [.attr (.name "self") "_io"])]⟩)]
  properties := []

/-- okdmr/kaitai/hytera/data_transmit_protocol.py:79-92 -/
def DataTransmitProtocol.DtpRequest : ClassDef where
  name := "Hytera.DataTransmitProtocol.DtpRequest"
  methods := [("__init__", ⟨["self", "_io", "_parent", "_root"],
      [.setattr (.name "self") "_io" (.name "_io"),
       .setattr (.name "self") "_parent" (.name "_parent"),
       .setattr (.name "self") "_root" (.ifExp (.name "_root") (.name "_root") (.name "self")),
       .expr (.call (.attr (.name "self") "_read") [])]⟩),
    ("_read", ⟨["self"],
      [.setattr (.name "self") "destination_ip" (.call (.cls "Hytera.RadioIp") [.attr (.name "self") "_io"]),
       .setattr (.name "self") "source_ip" (.call (.cls "Hytera.RadioIp") [.attr (.name "self") "_io"]),
       .setattr (.name "self") "file_size" (.call (.attr (.attr (.name "self") "_io") "read_u2be") []),
       .setattr (.name "self") "file_name" (.call (.attr (.call (.attr (.attr (.name "self") "_io") "read_bytes") [.bin .sub (.attr (.attr (.name "self") "_parent") "message_length") (.int 10)]) "decode") [.str "UTF-16LE"])]⟩)]
  properties := []

/-- okdmr/kaitai/hytera/data_transmit_protocol.py:94-107 -/
def DataTransmitProtocol.DataSliceAnswer : ClassDef where
  name := "Hytera.DataTransmitProtocol.DataSliceAnswer"
  methods := [("__init__", ⟨["self", "_io", "_parent", "_root"],
      [.setattr (.name "self") "_io" (.name "_io"),
       .setattr (.name "self") "_parent" (.name "_parent"),
       .setattr (.name "self") "_root" (.ifExp (.name "_root") (.name "_root") (.name "self")),
       .expr (.call (.attr (.name "self") "_read") [])]⟩),
    ("_read", ⟨["self"],
      [.setattr (.name "self") "destination_ip" (.call (.cls "Hytera.RadioIp") [.attr (.name "self") "_io"]),
       .setattr (.name "self") "source_ip" (.call (.cls "Hytera.RadioIp") [.attr (.name "self") "_io"]),
       .setattr (.name "self") "block_number" (.call (.attr (.attr (.name "self") "_io") "read_u2be") []),
       .setattr (.name "self") "result" (.call (.attr (.global "KaitaiStream") "resolve_enum") [.enum "Hytera.DataTransmitProtocol.Results", .call (.attr (.attr (.name "self") "_io") "read_u1") []])]⟩)]
  properties := []

/-- okdmr/kaitai/hytera/data_transmit_protocol.py:109-120 -/
def DataTransmitProtocol.DataSliceTransmit : ClassDef where
  name := "Hytera.DataTransmitProtocol.DataSliceTransmit"
  methods := [("__init__", ⟨["self", "_io", "_parent", "_root"],
      [.setattr (.name "self") "_io" (.name "_io"),
       .setattr (.name "self") "_parent" (.name "_parent"),
       .setattr (.name "self") "_root" (.ifExp (.name "_root") (.name "_root") (.name "self")),
       .expr (.call (.attr (.name "self") "_read") [])]⟩),
    ("_read", ⟨["self"],
      [.setattr (.name "self") "destination_ip" (.call (.cls "Hytera.RadioIp") [.attr (.name "self") "_io"]),
       .setattr (.name "self") "source_ip" (.call (.cls "Hytera.RadioIp") [.attr (.name "self") "_io"]),
       .setattr (.name "self") "block_number" (.call (.attr (.attr (.name "self") "_io") "read_u2be") []),
       .setattr (.name "self") "file_data" (.call (.attr (.attr (.name "self") "_io") "read_bytes") [.bin .sub (.attr (.attr (.name "self") "_parent") "message_length") (.int 10)])]⟩)]
  properties := []

/-- okdmr/kaitai/hytera/data_transmit_protocol.py:122-134 -/
def DataTransmitProtocol.LastDataSliceAnswer : ClassDef where
  name := "Hytera.DataTransmitProtocol.LastDataSliceAnswer"
  methods := [("__init__", ⟨["self", "_io", "_parent", "_root"],
      [.setattr (.name "self") "_io" (.name "_io"),
       .setattr (.name "self") "_parent" (.name "_parent"),
       .setattr (.name "self") "_root" (.ifExp (.name "_root") (.name "_root") (.name "self")),
       .expr (.call (.attr (.name "self") "_read") [])]⟩),
    ("_read", ⟨["self"],
      [.setattr (.name "self") "destination_ip" (.call (.cls "Hytera.RadioIp") [.attr (.name "self") "_io"]),
       .setattr (.name "self") "source_ip" (.call (.cls "Hytera.RadioIp") [.attr (.name "self") "_io"]),
       .setattr (.name "self") "result" (.call (.attr (.global "KaitaiStream") "resolve_enum") [.enum "Hytera.DataTransmitProtocol.Results", .call (.attr (.attr (.name "self") "_io") "read_u1") []])]⟩)]
  properties := []

/-- okdmr/kaitai/hytera/data_transmit_protocol.py:136-148 -/
def DataTransmitProtocol.DtpAnswer : ClassDef where
  name := "Hytera.DataTransmitProtocol.DtpAnswer"
  methods := [("__init__", ⟨["self", "_io", "_parent", "_root"],
      [.setattr (.name "self") "_io" (.name "_io"),
       .setattr (.name "self") "_parent" (.name "_parent"),
       .setattr (.name "self") "_root" (.ifExp (.name "_root") (.name "_root") (.name "self")),
       .expr (.call (.attr (.name "self") "_read") [])]⟩),
    ("_read", ⟨["self"],
      [.setattr (.name "self") "destination_ip" (.call (.cls "Hytera.RadioIp") [.attr (.name "self") "_io"]),
       .setattr (.name "self") "source_ip" (.call (.cls "Hytera.RadioIp") [.attr (.name "self") "_io"]),
       .setattr (.name "self") "result" (.call (.attr (.global "KaitaiStream") "resolve_enum") [.enum "Hytera.DataTransmitProtocol.Results", .call (.attr (.attr (.name "self") "_io") "read_u1") []])]⟩)]
  properties := []

/-- okdmr/kaitai/hytera/data_transmit_protocol.py:17-148 -/
def DataTransmitProtocol : ClassDef where
  name := "Hytera.DataTransmitProtocol"
  methods := [("__init__", ⟨["self", "_io", "_parent", "_root"],
      [.setattr (.name "self") "_io" (.name "_io"),
       .setattr (.name "self") "_parent" (.name "_parent"),
       .setattr (.name "self") "_root" (.ifExp (.name "_root") (.name "_root") (.name "self")),
       .expr (.call (.attr (.name "self") "_read") [])]⟩),
    ("_read", ⟨["self"],
      [.setattr (.name "self") "service_type" (.call (.attr (.global "KaitaiStream") "resolve_enum") [.enum "Hytera.DataTransmitProtocol.ServiceTypes", .call (.attr (.attr (.name "self") "_io") "read_u1") []]),
       .setattr (.name "self") "service_specific_type" (.call (.attr (.global "KaitaiStream") "resolve_enum") [.enum "Hytera.DataTransmitProtocol.ServiceSpecificTypes", .call (.attr (.attr (.name "self") "_io") "read_u1") []]),
       .setattr (.name "self") "message_length" (.call (.attr (.attr (.name "self") "_io") "read_u2be") []),
       .assign "_on" (.attr (.name "self") "service_specific_type"),
       .if_ (.cmp .eq (.name "_on") (.attr (.enum "Hytera.DataTransmitProtocol.ServiceSpecificTypes") "dtp_request"))
        [.setattr (.name "self") "data" (.call (.cls "Hytera.DataTransmitProtocol.DtpRequest") [.attr (.name "self") "_io", .name "self", .attr (.name "self") "_root"])]
        [.if_ (.cmp .eq (.name "_on") (.attr (.enum "Hytera.DataTransmitProtocol.ServiceSpecificTypes") "data_slice_transmit"))
          [.setattr (.name "self") "data" (.call (.cls "Hytera.DataTransmitProtocol.DataSliceTransmit") [.attr (.name "self") "_io", .name "self", .attr (.name "self") "_root"])]
          [.if_ (.cmp .eq (.name "_on") (.attr (.enum "Hytera.DataTransmitProtocol.ServiceSpecificTypes") "data_slice_answer"))
            [.setattr (.name "self") "data" (.call (.cls "Hytera.DataTransmitProtocol.DataSliceAnswer") [.attr (.name "self") "_io", .name "self", .attr (.name "self") "_root"])]
            [.if_ (.cmp .eq (.name "_on") (.attr (.enum "Hytera.DataTransmitProtocol.ServiceSpecificTypes") "last_data_slice_answer"))
              [.setattr (.name "self") "data" (.call (.cls "Hytera.DataTransmitProtocol.LastDataSliceAnswer") [.attr (.name "self") "_io", .name "self", .attr (.name "self") "_root"])]
              [.if_ (.cmp .eq (.name "_on") (.attr (.enum "Hytera.DataTransmitProtocol.ServiceSpecificTypes") "dtp_answer"))
                [.setattr (.name "self") "data" (.call (.cls "Hytera.DataTransmitProtocol.DtpAnswer") [.attr (.name "self") "_io", .name "self", .attr (.name "self") "_root"])]
                [.if_ (.cmp .eq (.name "_on") (.attr (.enum "Hytera.DataTransmitProtocol.ServiceSpecificTypes") "last_data_slice"))
                  [.setattr (.name "self") "data" (.call (.cls "Hytera.DataTransmitProtocol.LastDataSlice") [.attr (.name "self") "_io", .name "self", .attr (.name "self") "_root"])]
                  []]]]]]]⟩)]
  properties := []

/-- okdmr/kaitai/hytera/data_transmit_protocol.py -/
def DataTransmitProtocol.file : File where
  classes := [DataTransmitProtocol.LastDataSlice,
    DataTransmitProtocol.DtpRequest,
    DataTransmitProtocol.DataSliceAnswer,
    DataTransmitProtocol.DataSliceTransmit,
    DataTransmitProtocol.LastDataSliceAnswer,
    DataTransmitProtocol.DtpAnswer,
    DataTransmitProtocol]
  enums := [DataTransmitProtocol.ServiceTypes,
    DataTransmitProtocol.ServiceSpecificTypes,
    DataTransmitProtocol.Results]

end Dmr.Py.Source.Hytera
