import Verif.Py.Syntax
/-
Generated by tools/mkpyast.py: okdmr/kaitai/motorola/text_message_protocol.py as data.
-/

set_option autoImplicit false

namespace Dmr.Py.Source.Motorola

/-- okdmr/kaitai/motorola/text_message_protocol.py:17-21 -/
def TextMessageProtocol.TmsServiceCapability : EnumDef where
  qualified := "Motorola.TextMessageProtocol.TmsServiceCapability"
  name := "TmsServiceCapability"
  members := [("limited_capability", 0), ("internal_capability", 1), ("external_capability", 2), ("full_capability", 3)]

/-- okdmr/kaitai/motorola/text_message_protocol.py:57-74 -/
def TextMessageProtocol.TextMessage : ClassDef where
  name := "Motorola.TextMessageProtocol.TextMessage"
  methods := [("__init__", ⟨["self", "_io", "_parent", "_root"],
      [.setattr (.name "self") "_io" (.name "_io"),
       .setattr (.name "self") "_parent" (.name "_parent"),
       .setattr (.name "self") "_root" (.ifExp (.name "_root") (.name "_root") (.name "self")),
       .expr (.call (.attr (.name "self") "_read") [])]⟩),
    ("_read", ⟨["self"],
      [.if_ (.attr (.attr (.attr (.name "self") "_root") "message_header") "extension_bit")
        [.setattr (.name "self") "text_message_header_sequence_and_encoding" (.call (.cls "Motorola.TextMessageProtocol.TextMessageHeaderSequenceAndEncoding") [.attr (.name "self") "_io", .name "self", .attr (.name "self") "_root"])]
        [],
       .setattr (.name "self") "text_message" (.call (.attr (.call (.attr (.attr (.name "self") "_io") "read_bytes_full") []) "decode") [.str "utf-16-le"])]⟩)]
  properties := []

/-- okdmr/kaitai/motorola/text_message_protocol.py:76-89 -/
def TextMessageProtocol.TmsServiceAvailability : ClassDef where
  name := "Motorola.TextMessageProtocol.TmsServiceAvailability"
  methods := [("__init__", ⟨["self", "_io", "_parent", "_root"],
      [.setattr (.name "self") "_io" (.name "_io"),
       .setattr (.name "self") "_parent" (.name "_parent"),
       .setattr (.name "self") "_root" (.ifExp (.name "_root") (.name "_root") (.name "self")),
       .expr (.call (.attr (.name "self") "_read") [])]⟩),
    ("_read", ⟨["self"],
      [.if_ (.attr (.attr (.attr (.name "self") "_root") "message_header") "extension_bit")
        [.setattr (.name "self") "header" (.call (.cls "Motorola.TextMessageProtocol.TmsServiceAvailabilityHeader") [.attr (.name "self") "_io", .name "self", .attr (.name "self") "_root"])]
        []]⟩)]
  properties := []

/-- okdmr/kaitai/motorola/text_message_protocol.py:91-118 -/
def TextMessageProtocol.TextMessageHeaderSequenceAndEncoding : ClassDef where
  name := "Motorola.TextMessageProtocol.TextMessageHeaderSequenceAndEncoding"
  methods := [("__init__", ⟨["self", "_io", "_parent", "_root"],
      [.setattr (.name "self") "_io" (.name "_io"),
       .setattr (.name "self") "_parent" (.name "_parent"),
       .setattr (.name "self") "_root" (.ifExp (.name "_root") (.name "_root") (.name "self")),
       .expr (.call (.attr (.name "self") "_read") [])]⟩),
    ("_read", ⟨["self"],
      [.setattr (.name "self") "has_encoding_header" (.cmp .ne (.call (.attr (.attr (.name "self") "_io") "read_bits_int_be") [.int 1]) (.int 0)),
       .setattr (.name "self") "reserved_1" (.call (.attr (.attr (.name "self") "_io") "read_bits_int_be") [.int 2]),
       .setattr (.name "self") "sequence_number_lsb_bits" (.call (.attr (.attr (.name "self") "_io") "read_bits_int_be") [.int 5]),
       .if_ (.attr (.name "self") "has_encoding_header")
        [.setattr (.name "self") "header_encoding_extension" (.cmp .ne (.call (.attr (.attr (.name "self") "_io") "read_bits_int_be") [.int 1]) (.int 0))]
        [],
       .if_ (.attr (.name "self") "has_encoding_header")
        [.setattr (.name "self") "sequence_number_msb_bits" (.call (.attr (.attr (.name "self") "_io") "read_bits_int_be") [.int 2])]
        [],
       .setattr (.name "self") "encoding" (.call (.attr (.attr (.name "self") "_io") "read_bits_int_be") [.int 5])]⟩)]
  properties := [("sequence_number", ⟨["self"],
      [.if_ (.call (.global "hasattr") [.name "self", .str "_m_sequence_number"])
        [.return_ (.attr (.name "self") "_m_sequence_number")]
        [],
       .setattr (.name "self") "_m_sequence_number" (.bin .add (.bin .shl (.attr (.name "self") "sequence_number_msb_bits") (.int 4)) (.attr (.name "self") "sequence_number_lsb_bits")),
       .return_ (.call (.global "getattr") [.name "self", .str "_m_sequence_number", .none])]⟩)]

/-- okdmr/kaitai/motorola/text_message_protocol.py:120-132 -/
def TextMessageProtocol.MessageHeaderBits : ClassDef where
  name := "Motorola.TextMessageProtocol.MessageHeaderBits"
  methods := [("__init__", ⟨["self", "_io", "_parent", "_root"],
      [.setattr (.name "self") "_io" (.name "_io"),
       .setattr (.name "self") "_parent" (.name "_parent"),
       .setattr (.name "self") "_root" (.ifExp (.name "_root") (.name "_root") (.name "self")),
       .expr (.call (.attr (.name "self") "_read") [])]⟩),
    ("_read", ⟨["self"],
      [.setattr (.name "self") "extension_bit" (.cmp .ne (.call (.attr (.attr (.name "self") "_io") "read_bits_int_be") [.int 1]) (.int 0)),
       .setattr (.name "self") "acknowledgement_required" (.cmp .ne (.call (.attr (.attr (.name "self") "_io") "read_bits_int_be") [.int 1]) (.int 0)),
       .setattr (.name "self") "reserved" (.cmp .ne (.call (.attr (.attr (.name "self") "_io") "read_bits_int_be") [.int 1]) (.int 0)),
       .setattr (.name "self") "control_user_bit" (.cmp .ne (.call (.attr (.attr (.name "self") "_io") "read_bits_int_be") [.int 1]) (.int 0)),
       .setattr (.name "self") "pdu_type" (.call (.attr (.attr (.name "self") "_io") "read_bits_int_be") [.int 4])]⟩)]
  properties := []

/-- okdmr/kaitai/motorola/text_message_protocol.py:134-149 -/
def TextMessageProtocol.TmsAcknowledgement : ClassDef where
  name := "Motorola.TextMessageProtocol.TmsAcknowledgement"
  methods := [("__init__", ⟨["self", "_io", "_parent", "_root"],
      [.setattr (.name "self") "_io" (.name "_io"),
       .setattr (.name "self") "_parent" (.name "_parent"),
       .setattr (.name "self") "_root" (.ifExp (.name "_root") (.name "_root") (.name "self")),
       .expr (.call (.attr (.name "self") "_read") [])]⟩),
    ("_read", ⟨["self"],
      [.if_ (.attr (.attr (.attr (.name "self") "_root") "message_header") "extension_bit")
        [.setattr (.name "self") "tms_acknowledgement_header_sequence_number" (.call (.cls "Motorola.TextMessageProtocol.TmsAcknowledgementHeaderSequenceNumber") [.attr (.name "self") "_io", .name "self", .attr (.name "self") "_root"])]
        []]⟩)]
  properties := []

/-- okdmr/kaitai/motorola/text_message_protocol.py:151-179 -/
def TextMessageProtocol.TmsAcknowledgementHeaderSequenceNumber : ClassDef where
  name := "Motorola.TextMessageProtocol.TmsAcknowledgementHeaderSequenceNumber"
  methods := [("__init__", ⟨["self", "_io", "_parent", "_root"],
      [.setattr (.name "self") "_io" (.name "_io"),
       .setattr (.name "self") "_parent" (.name "_parent"),
       .setattr (.name "self") "_root" (.ifExp (.name "_root") (.name "_root") (.name "self")),
       .expr (.call (.attr (.name "self") "_read") [])]⟩),
    ("_read", ⟨["self"],
      [.setattr (.name "self") "has_msb_header" (.cmp .ne (.call (.attr (.attr (.name "self") "_io") "read_bits_int_be") [.int 1]) (.int 0)),
       .setattr (.name "self") "header_lsb_reserved" (.call (.attr (.attr (.name "self") "_io") "read_bits_int_be") [.int 2]),
       .setattr (.name "self") "header_lsb_bits" (.call (.attr (.attr (.name "self") "_io") "read_bits_int_be") [.int 5]),
       .if_ (.attr (.name "self") "has_msb_header")
        [.setattr (.name "self") "header_msb_extension" (.cmp .ne (.call (.attr (.attr (.name "self") "_io") "read_bits_int_be") [.int 1]) (.int 0))]
        [],
       .if_ (.attr (.name "self") "has_msb_header")
        [.setattr (.name "self") "header_msb_bits" (.call (.attr (.attr (.name "self") "_io") "read_bits_int_be") [.int 2])]
        [],
       .if_ (.attr (.name "self") "has_msb_header")
        [.setattr (.name "self") "header_msb_reserved" (.call (.attr (.attr (.name "self") "_io") "read_bits_int_be") [.int 5])]
        []]⟩)]
  properties := [("sequence_number", ⟨["self"],
      [.if_ (.call (.global "hasattr") [.name "self", .str "_m_sequence_number"])
        [.return_ (.attr (.name "self") "_m_sequence_number")]
        [],
       .setattr (.name "self") "_m_sequence_number" (.bin .add (.bin .shl (.attr (.name "self") "header_msb_bits") (.int 4)) (.attr (.name "self") "header_lsb_bits")),
       .return_ (.call (.global "getattr") [.name "self", .str "_m_sequence_number", .none])]⟩)]

/-- okdmr/kaitai/motorola/text_message_protocol.py:181-193 -/
def TextMessageProtocol.TmsServiceAvailabilityAcknowledgement : ClassDef where
  name := "Motorola.TextMessageProtocol.TmsServiceAvailabilityAcknowledgement"
  methods := [("__init__", ⟨["self", "_io", "_parent", "_root"],
      [.setattr (.name "self") "_io" (.name "_io"),
       .setattr (.name "self") "_parent" (.name "_parent"),
       .setattr (.name "self") "_root" (.ifExp (.name "_root") (.name "_root") (.name "self")),
       .expr (.call (.attr (.name "self") "_read") [])]⟩),
    ("_read", ⟨["self"],
      [.pass_]⟩)]
  properties := []

/-- okdmr/kaitai/motorola/text_message_protocol.py:195-207 -/
def TextMessageProtocol.TmsServiceAvailabilityHeader : ClassDef where
  name := "Motorola.TextMessageProtocol.TmsServiceAvailabilityHeader"
  methods := [("__init__", ⟨["self", "_io", "_parent", "_root"],
      [.setattr (.name "self") "_io" (.name "_io"),
       .setattr (.name "self") "_parent" (.name "_parent"),
       .setattr (.name "self") "_root" (.ifExp (.name "_root") (.name "_root") (.name "self")),
       .expr (.call (.attr (.name "self") "_read") [])]⟩),
    ("_read", ⟨["self"],
      [.setattr (.name "self") "extension_bit" (.cmp .ne (.call (.attr (.attr (.name "self") "_io") "read_bits_int_be") [.int 1]) (.int 0)),
       .setattr (.name "self") "reserved" (.call (.attr (.attr (.name "self") "_io") "read_bits_int_be") [.int 4]),
       .setattr (.name "self") "device" (.call (.attr (.global "KaitaiStream") "resolve_enum") [.enum "Motorola.TextMessageProtocol.TmsServiceCapability", .call (.attr (.attr (.name "self") "_io") "read_bits_int_be") [.int 3]])]⟩)]
  properties := []

/-- okdmr/kaitai/motorola/text_message_protocol.py:15-219 -/
def TextMessageProtocol : ClassDef where
  name := "Motorola.TextMessageProtocol"
  methods := [("__init__", ⟨["self", "_io", "_parent", "_root"],
      [.setattr (.name "self") "_io" (.name "_io"),
       .setattr (.name "self") "_parent" (.name "_parent"),
       .setattr (.name "self") "_root" (.ifExp (.name "_root") (.name "_root") (.name "self")),
       .expr (.call (.attr (.name "self") "_read") [])]⟩),
    ("_read", ⟨["self"],
      [.setattr (.name "self") "message_size" (.call (.attr (.attr (.name "self") "_io") "read_u2be") []),
       .setattr (.name "self") "message_header" (.call (.cls "Motorola.TextMessageProtocol.MessageHeaderBits") [.attr (.name "self") "_io", .name "self", .attr (.name "self") "_root"]),
       .setattr (.name "self") "len_address" (.call (.attr (.attr (.name "self") "_io") "read_u1") []),
       .if_ (.cmp .gt (.attr (.name "self") "len_address") (.int 0))
        [.setattr (.name "self") "address" (.call (.attr (.attr (.name "self") "_io") "read_bytes") [.attr (.name "self") "len_address"])]
        [],
       .assign "_on" (.attr (.name "self") "custom_pdu_type"),
       .if_ (.cmp .eq (.name "_on") (.int 48))
        [.setattr (.name "self") "pdu_content" (.call (.cls "Motorola.TextMessageProtocol.TmsServiceAvailability") [.attr (.name "self") "_io", .name "self", .attr (.name "self") "_root"])]
        [.if_ (.cmp .eq (.name "_on") (.int 31))
          [.setattr (.name "self") "pdu_content" (.call (.cls "Motorola.TextMessageProtocol.TmsAcknowledgement") [.attr (.name "self") "_io", .name "self", .attr (.name "self") "_root"])]
          [.if_ (.cmp .eq (.name "_on") (.int 0))
            [.setattr (.name "self") "pdu_content" (.call (.cls "Motorola.TextMessageProtocol.TextMessage") [.attr (.name "self") "_io", .name "self", .attr (.name "self") "_root"])]
            [.if_ (.cmp .eq (.name "_on") (.int 32))
              [.setattr (.name "self") "pdu_content" (.call (.cls "Motorola.TextMessageProtocol.TextMessage") [.attr (.name "self") "_io", .name "self", .attr (.name "self") "_root"])]
              []]]],
       .setattr (.name "self") "unparsed_data" (.call (.attr (.attr (.name "self") "_io") "read_bytes_full") [])]⟩)]
  properties := [("custom_pdu_type", ⟨["self"],
      [.if_ (.call (.global "hasattr") [.name "self", .str "_m_custom_pdu_type"])
        [.return_ (.attr (.name "self") "_m_custom_pdu_type")]
        [],
       .setattr (.name "self") "_m_custom_pdu_type" (.bin .add (.bin .add (.bin .shl (.call (.global "int") [.attr (.attr (.attr (.name "self") "_root") "message_header") "acknowledgement_required"]) (.int 5)) (.bin .shl (.call (.global "int") [.attr (.attr (.attr (.name "self") "_root") "message_header") "control_user_bit"]) (.int 4))) (.attr (.attr (.attr (.name "self") "_root") "message_header") "pdu_type")),
       .return_ (.call (.global "getattr") [.name "self", .str "_m_custom_pdu_type", .none])]⟩)]

/-- okdmr/kaitai/motorola/text_message_protocol.py -/
def TextMessageProtocol.file : File where
  classes := [TextMessageProtocol.TextMessage,
    TextMessageProtocol.TmsServiceAvailability,
    TextMessageProtocol.TextMessageHeaderSequenceAndEncoding,
    TextMessageProtocol.MessageHeaderBits,
    TextMessageProtocol.TmsAcknowledgement,
    TextMessageProtocol.TmsAcknowledgementHeaderSequenceNumber,
    TextMessageProtocol.TmsServiceAvailabilityAcknowledgement,
    TextMessageProtocol.TmsServiceAvailabilityHeader,
    TextMessageProtocol]
  enums := [TextMessageProtocol.TmsServiceCapability]

end Dmr.Py.Source.Motorola
