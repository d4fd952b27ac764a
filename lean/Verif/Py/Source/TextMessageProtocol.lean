import Verif.Py.Syntax
/-
Generated by tools/mkpyast.py: okdmr/kaitai/hytera/text_message_protocol.py as data.
-/

set_option autoImplicit false

namespace Dmr.Py.Source.Hytera

/-- okdmr/kaitai/hytera/text_message_protocol.py:19-21 -/
def TextMessageProtocol.AckFlags : EnumDef where
  qualified := "Hytera.TextMessageProtocol.AckFlags"
  name := "AckFlags"
  members := [("ack_required", 0), ("ack_not_required", 1)]

/-- okdmr/kaitai/hytera/text_message_protocol.py:23-25 -/
def TextMessageProtocol.OptionFlags : EnumDef where
  qualified := "Hytera.TextMessageProtocol.OptionFlags"
  name := "OptionFlags"
  members := [("option_len_and_field_disabled", 0), ("option_len_and_field_enabled", 1)]

/-- okdmr/kaitai/hytera/text_message_protocol.py:27-31 -/
def TextMessageProtocol.ServiceTypes : EnumDef where
  qualified := "Hytera.TextMessageProtocol.ServiceTypes"
  name := "ServiceTypes"
  members := [("send_private_message", 161), ("send_private_message_ack", 162), ("send_group_message", 177), ("send_group_message_ack", 178)]

/-- okdmr/kaitai/hytera/text_message_protocol.py:33-45 -/
def TextMessageProtocol.ResultCodes : EnumDef where
  qualified := "Hytera.TextMessageProtocol.ResultCodes"
  name := "ResultCodes"
  members := [("ok", 0), ("fail", 1), ("invalid_params", 3), ("channel_busy", 4), ("rx_only", 5), ("low_battery", 6), ("pll_unlock", 7), ("private_call_no_ack", 8), ("repeater_wakeup_fail", 9), ("no_contact", 10), ("tx_deny", 11), ("tx_interrupted", 12)]

/-- okdmr/kaitai/hytera/text_message_protocol.py:17-106 -/
def TextMessageProtocol : ClassDef where
  name := "Hytera.TextMessageProtocol"
  methods := [("__init__", ⟨["self", "_io", "_parent", "_root"],
      [.setattr (.name "self") "_io" (.name "_io"),
       .setattr (.name "self") "_parent" (.name "_parent"),
       .setattr (.name "self") "_root" (.ifExp (.name "_root") (.name "_root") (.name "self")),
       .expr (.call (.attr (.name "self") "_read") [])]⟩),
    ("_read", ⟨["self"],
      [.setattr (.name "self") "ack_flag" (.call (.attr (.global "KaitaiStream") "resolve_enum") [.enum "Hytera.TextMessageProtocol.AckFlags", .call (.attr (.attr (.name "self") "_io") "read_bits_int_be") [.int 1]]),
       .setattr (.name "self") "option_flag" (.call (.attr (.global "KaitaiStream") "resolve_enum") [.enum "Hytera.TextMessageProtocol.OptionFlags", .call (.attr (.attr (.name "self") "_io") "read_bits_int_be") [.int 1]]),
       .setattr (.name "self") "reserved" (.call (.attr (.attr (.name "self") "_io") "read_bits_int_be") [.int 6]),
       .expr (.call (.attr (.attr (.name "self") "_io") "align_to_byte") []),
       .setattr (.name "self") "service_type" (.call (.attr (.global "KaitaiStream") "resolve_enum") [.enum "Hytera.TextMessageProtocol.ServiceTypes", .call (.attr (.attr (.name "self") "_io") "read_u1") []]),
       .setattr (.name "self") "message_length" (.call (.attr (.attr (.name "self") "_io") "read_u2be") []),
       .if_ (.cmp .eq (.attr (.attr (.name "self") "option_flag") "value") (.int 1))
        [.setattr (.name "self") "option_field_len" (.call (.attr (.attr (.name "self") "_io") "read_u2be") [])]
        [],
       .setattr (.name "self") "request_id" (.call (.attr (.attr (.name "self") "_io") "read_u4be") []),
       .setattr (.name "self") "destination_ip" (.call (.cls "Hytera.RadioIp") [.attr (.name "self") "_io"]),
       .if_ (.cmp .ne (.attr (.name "self") "service_type") (.attr (.enum "Hytera.TextMessageProtocol.ServiceTypes") "send_group_message_ack"))
        [.setattr (.name "self") "source_ip" (.call (.cls "Hytera.RadioIp") [.attr (.name "self") "_io"])]
        [],
       .if_ (.or (.cmp .eq (.attr (.name "self") "service_type") (.attr (.enum "Hytera.TextMessageProtocol.ServiceTypes") "send_private_message_ack")) (.cmp .eq (.attr (.name "self") "service_type") (.attr (.enum "Hytera.TextMessageProtocol.ServiceTypes") "send_group_message_ack")))
        [.setattr (.name "self") "result" (.call (.attr (.global "KaitaiStream") "resolve_enum") [.enum "Hytera.TextMessageProtocol.ResultCodes", .call (.attr (.attr (.name "self") "_io") "read_u1") []])]
        [],
       .if_ (.or (.cmp .eq (.attr (.name "self") "service_type") (.attr (.enum "Hytera.TextMessageProtocol.ServiceTypes") "send_private_message")) (.cmp .eq (.attr (.name "self") "service_type") (.attr (.enum "Hytera.TextMessageProtocol.ServiceTypes") "send_group_message")))
        [.setattr (.name "self") "tmdata" (.call (.attr (.call (.attr (.attr (.name "self") "_io") "read_bytes") [.bin .sub (.bin .sub (.bin .sub (.bin .sub (.attr (.name "self") "message_length") (.int 4)) (.int 4)) (.int 4)) (.attr (.name "self") "option_sum_len")]) "decode") [.str "UTF-16LE"])]
        [],
       .if_ (.cmp .eq (.attr (.attr (.name "self") "option_flag") "value") (.int 1))
        [.setattr (.name "self") "option_field" (.call (.attr (.call (.attr (.attr (.name "self") "_io") "read_bytes") [.attr (.name "self") "option_field_len"]) "decode") [.str "UTF-16LE"])]
        []]⟩)]
  properties := [("option_sum_len", ⟨["self"],
      [.if_ (.call (.global "hasattr") [.name "self", .str "_m_option_sum_len"])
        [.return_ (.attr (.name "self") "_m_option_sum_len")]
        [],
       .setattr (.name "self") "_m_option_sum_len" (.ifExp (.cmp .eq (.attr (.attr (.name "self") "option_flag") "value") (.int 1)) (.bin .add (.attr (.name "self") "option_field_len") (.int 2)) (.int 0)),
       .return_ (.call (.global "getattr") [.name "self", .str "_m_option_sum_len", .none])]⟩)]

/-- okdmr/kaitai/hytera/text_message_protocol.py -/
def TextMessageProtocol.file : File where
  classes := [TextMessageProtocol]
  enums := [TextMessageProtocol.AckFlags,
    TextMessageProtocol.OptionFlags,
    TextMessageProtocol.ServiceTypes,
    TextMessageProtocol.ResultCodes]

end Dmr.Py.Source.Hytera
