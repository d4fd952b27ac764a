import Verif.Py.Syntax
/-
Generated by tools/mkpyast.py: okdmr/kaitai/homebrew/homebrew2015.py as data.
-/

set_option autoImplicit false

namespace Dmr.Py.Source.Homebrew

/-- okdmr/kaitai/homebrew/homebrew2015.py:18-20 -/
def Homebrew2015.Timeslots : EnumDef where
  qualified := "Homebrew.Homebrew2015.Timeslots"
  name := "Timeslots"
  members := [("timeslot_1", 0), ("timeslot_2", 1)]

/-- okdmr/kaitai/homebrew/homebrew2015.py:22-24 -/
def Homebrew2015.CallTypes : EnumDef where
  qualified := "Homebrew.Homebrew2015.CallTypes"
  name := "CallTypes"
  members := [("group_call", 0), ("private_call", 1)]

/-- okdmr/kaitai/homebrew/homebrew2015.py:26-30 -/
def Homebrew2015.FrameTypes : EnumDef where
  qualified := "Homebrew.Homebrew2015.FrameTypes"
  name := "FrameTypes"
  members := [("voice_data", 0), ("voice_sync", 1), ("data_or_data_sync", 2), ("unused", 3)]

/-- okdmr/kaitai/homebrew/homebrew2015.py:74-90 -/
def Homebrew2015.TypeMasterPing : ClassDef where
  name := "Homebrew.Homebrew2015.TypeMasterPing"
  methods := [("__init__", ⟨["self", "_io", "_parent", "_root"],
      [.setattr (.name "self") "_io" (.name "_io"),
       .setattr (.name "self") "_parent" (.name "_parent"),
       .setattr (.name "self") "_root" (.ifExp (.name "_root") (.name "_root") (.name "self")),
       .expr (.call (.attr (.name "self") "_read") [])]⟩),
    ("_read", ⟨["self"],
      [.setattr (.name "self") "magic" (.call (.attr (.attr (.name "self") "_io") "read_bytes") [.int 3]),
       .if_ (.not (.cmp .eq (.attr (.name "self") "magic") (.bytes [73, 78, 71])))
        [.raise_ (.call (.attr (.global "kaitaistruct") "ValidationNotEqualError") [.bytes [73, 78, 71], .attr (.name "self") "magic", .attr (.name "self") "_io", .str "/types/type_master_ping/seq/0"])]
        [],
       .setattr (.name "self") "repeater_id" (.call (.attr (.attr (.name "self") "_io") "read_u4be") [])]⟩)]
  properties := []

/-- okdmr/kaitai/homebrew/homebrew2015.py:92-108 -/
def Homebrew2015.TypeRepeaterPong : ClassDef where
  name := "Homebrew.Homebrew2015.TypeRepeaterPong"
  methods := [("__init__", ⟨["self", "_io", "_parent", "_root"],
      [.setattr (.name "self") "_io" (.name "_io"),
       .setattr (.name "self") "_parent" (.name "_parent"),
       .setattr (.name "self") "_root" (.ifExp (.name "_root") (.name "_root") (.name "self")),
       .expr (.call (.attr (.name "self") "_read") [])]⟩),
    ("_read", ⟨["self"],
      [.setattr (.name "self") "magic" (.call (.attr (.attr (.name "self") "_io") "read_bytes") [.int 3]),
       .if_ (.not (.cmp .eq (.attr (.name "self") "magic") (.bytes [79, 78, 71])))
        [.raise_ (.call (.attr (.global "kaitaistruct") "ValidationNotEqualError") [.bytes [79, 78, 71], .attr (.name "self") "magic", .attr (.name "self") "_io", .str "/types/type_repeater_pong/seq/0"])]
        [],
       .setattr (.name "self") "repeater_id" (.call (.attr (.attr (.name "self") "_io") "read_u4be") [])]⟩)]
  properties := []

/-- okdmr/kaitai/homebrew/homebrew2015.py:110-124 -/
def Homebrew2015.TypeRepeaterConfigurationOrClosing : ClassDef where
  name := "Homebrew.Homebrew2015.TypeRepeaterConfigurationOrClosing"
  methods := [("__init__", ⟨["self", "_io", "_parent", "_root"],
      [.setattr (.name "self") "_io" (.name "_io"),
       .setattr (.name "self") "_parent" (.name "_parent"),
       .setattr (.name "self") "_root" (.ifExp (.name "_root") (.name "_root") (.name "self")),
       .expr (.call (.attr (.name "self") "_read") [])]⟩),
    ("_read", ⟨["self"],
      [.assign "_on" (.attr (.attr (.name "self") "_root") "fifth_letter"),
       .if_ (.cmp .eq (.name "_on") (.str "L"))
        [.setattr (.name "self") "data" (.call (.cls "Homebrew.Homebrew2015.TypeRepeaterClosing") [.attr (.name "self") "_io", .name "self", .attr (.name "self") "_root"])]
        [.setattr (.name "self") "data" (.call (.cls "Homebrew.Homebrew2015.TypeRepeaterConfiguration") [.attr (.name "self") "_io", .name "self", .attr (.name "self") "_root"])]]⟩)]
  properties := []

/-- okdmr/kaitai/homebrew/homebrew2015.py:126-135 -/
def Homebrew2015.TypeRepeaterLoginResponse : ClassDef where
  name := "Homebrew.Homebrew2015.TypeRepeaterLoginResponse"
  methods := [("__init__", ⟨["self", "_io", "_parent", "_root"],
      [.setattr (.name "self") "_io" (.name "_io"),
       .setattr (.name "self") "_parent" (.name "_parent"),
       .setattr (.name "self") "_root" (.ifExp (.name "_root") (.name "_root") (.name "self")),
       .expr (.call (.attr (.name "self") "_read") [])]⟩),
    ("_read", ⟨["self"],
      [.setattr (.name "self") "repeater_id" (.call (.attr (.attr (.name "self") "_io") "read_u4be") []),
       .setattr (.name "self") "sha256" (.call (.attr (.attr (.name "self") "_io") "read_bytes") [.int 32])]⟩)]
  properties := []

/-- okdmr/kaitai/homebrew/homebrew2015.py:137-145 -/
def Homebrew2015.TypeRepeaterLoginRequest : ClassDef where
  name := "Homebrew.Homebrew2015.TypeRepeaterLoginRequest"
  methods := [("__init__", ⟨["self", "_io", "_parent", "_root"],
      [.setattr (.name "self") "_io" (.name "_io"),
       .setattr (.name "self") "_parent" (.name "_parent"),
       .setattr (.name "self") "_root" (.ifExp (.name "_root") (.name "_root") (.name "self")),
       .expr (.call (.attr (.name "self") "_read") [])]⟩),
    ("_read", ⟨["self"],
      [.setattr (.name "self") "repeater_id" (.call (.attr (.attr (.name "self") "_io") "read_u4be") [])]⟩)]
  properties := []

/-- okdmr/kaitai/homebrew/homebrew2015.py:147-163 -/
def Homebrew2015.TypeMasterNotAccept : ClassDef where
  name := "Homebrew.Homebrew2015.TypeMasterNotAccept"
  methods := [("__init__", ⟨["self", "_io", "_parent", "_root"],
      [.setattr (.name "self") "_io" (.name "_io"),
       .setattr (.name "self") "_parent" (.name "_parent"),
       .setattr (.name "self") "_root" (.ifExp (.name "_root") (.name "_root") (.name "self")),
       .expr (.call (.attr (.name "self") "_read") [])]⟩),
    ("_read", ⟨["self"],
      [.setattr (.name "self") "magic" (.call (.attr (.attr (.name "self") "_io") "read_bytes") [.int 2]),
       .if_ (.not (.cmp .eq (.attr (.name "self") "magic") (.bytes [65, 75])))
        [.raise_ (.call (.attr (.global "kaitaistruct") "ValidationNotEqualError") [.bytes [65, 75], .attr (.name "self") "magic", .attr (.name "self") "_io", .str "/types/type_master_not_accept/seq/0"])]
        [],
       .setattr (.name "self") "repeater_id" (.call (.attr (.attr (.name "self") "_io") "read_u4be") [])]⟩)]
  properties := []

/-- okdmr/kaitai/homebrew/homebrew2015.py:165-183 -/
def Homebrew2015.TypeMasterRepeaterAck : ClassDef where
  name := "Homebrew.Homebrew2015.TypeMasterRepeaterAck"
  methods := [("__init__", ⟨["self", "_io", "_parent", "_root"],
      [.setattr (.name "self") "_io" (.name "_io"),
       .setattr (.name "self") "_parent" (.name "_parent"),
       .setattr (.name "self") "_root" (.ifExp (.name "_root") (.name "_root") (.name "self")),
       .expr (.call (.attr (.name "self") "_read") [])]⟩),
    ("_read", ⟨["self"],
      [.setattr (.name "self") "magictype_master_repeater_ack" (.call (.attr (.attr (.name "self") "_io") "read_bytes") [.int 2]),
       .if_ (.not (.cmp .eq (.attr (.name "self") "magictype_master_repeater_ack") (.bytes [67, 75])))
        [.raise_ (.call (.attr (.global "kaitaistruct") "ValidationNotEqualError") [.bytes [67, 75], .attr (.name "self") "magictype_master_repeater_ack", .attr (.name "self") "_io", .str "/types/type_master_repeater_ack/seq/0"])]
        [],
       .setattr (.name "self") "repeater_id" (.call (.attr (.attr (.name "self") "_io") "read_u4be") []),
       .if_ (.not (.call (.attr (.attr (.name "self") "_io") "is_eof") []))
        [.setattr (.name "self") "random_number" (.call (.attr (.attr (.name "self") "_io") "read_u4be") [])]
        []]⟩)]
  properties := []

/-- okdmr/kaitai/homebrew/homebrew2015.py:185-198 -/
def Homebrew2015.TypeMasterClosing : ClassDef where
  name := "Homebrew.Homebrew2015.TypeMasterClosing"
  methods := [("__init__", ⟨["self", "_io", "_parent", "_root"],
      [.setattr (.name "self") "_io" (.name "_io"),
       .setattr (.name "self") "_parent" (.name "_parent"),
       .setattr (.name "self") "_root" (.ifExp (.name "_root") (.name "_root") (.name "self")),
       .expr (.call (.attr (.name "self") "_read") [])]⟩),
    ("_read", ⟨["self"],
      [.setattr (.name "self") "magic" (.call (.attr (.attr (.name "self") "_io") "read_bytes") [.int 1]),
       .if_ (.not (.cmp .eq (.attr (.name "self") "magic") (.bytes [76])))
        [.raise_ (.call (.attr (.global "kaitaistruct") "ValidationNotEqualError") [.bytes [76], .attr (.name "self") "magic", .attr (.name "self") "_io", .str "/types/type_master_closing/seq/0"])]
        [],
       .setattr (.name "self") "repeater_id" (.call (.attr (.attr (.name "self") "_io") "read_u4be") [])]⟩)]
  properties := []

/-- okdmr/kaitai/homebrew/homebrew2015.py:200-230 -/
def Homebrew2015.TypeDmrData : ClassDef where
  name := "Homebrew.Homebrew2015.TypeDmrData"
  methods := [("__init__", ⟨["self", "_io", "_parent", "_root"],
      [.setattr (.name "self") "_io" (.name "_io"),
       .setattr (.name "self") "_parent" (.name "_parent"),
       .setattr (.name "self") "_root" (.ifExp (.name "_root") (.name "_root") (.name "self")),
       .expr (.call (.attr (.name "self") "_read") [])]⟩),
    ("_read", ⟨["self"],
      [.setattr (.name "self") "sequence_no" (.call (.attr (.attr (.name "self") "_io") "read_u1") []),
       .setattr (.name "self") "source_id" (.call (.attr (.attr (.name "self") "_io") "read_bits_int_be") [.int 24]),
       .setattr (.name "self") "target_id" (.call (.attr (.attr (.name "self") "_io") "read_bits_int_be") [.int 24]),
       .expr (.call (.attr (.attr (.name "self") "_io") "align_to_byte") []),
       .setattr (.name "self") "repeater_id" (.call (.attr (.attr (.name "self") "_io") "read_u4be") []),
       .setattr (.name "self") "slot_no" (.call (.attr (.global "KaitaiStream") "resolve_enum") [.enum "Homebrew.Homebrew2015.Timeslots", .call (.attr (.attr (.name "self") "_io") "read_bits_int_be") [.int 1]]),
       .setattr (.name "self") "call_type" (.call (.attr (.global "KaitaiStream") "resolve_enum") [.enum "Homebrew.Homebrew2015.CallTypes", .call (.attr (.attr (.name "self") "_io") "read_bits_int_be") [.int 1]]),
       .setattr (.name "self") "frame_type" (.call (.attr (.global "KaitaiStream") "resolve_enum") [.enum "Homebrew.Homebrew2015.FrameTypes", .call (.attr (.attr (.name "self") "_io") "read_bits_int_be") [.int 2]]),
       .setattr (.name "self") "data_type" (.call (.attr (.attr (.name "self") "_io") "read_bits_int_be") [.int 4]),
       .expr (.call (.attr (.attr (.name "self") "_io") "align_to_byte") []),
       .setattr (.name "self") "stream_id" (.call (.attr (.attr (.name "self") "_io") "read_u4be") []),
       .setattr (.name "self") "dmr_data" (.call (.attr (.attr (.name "self") "_io") "read_bytes") [.int 33]),
       .if_ (.not (.call (.attr (.attr (.name "self") "_io") "is_eof") []))
        [.setattr (.name "self") "bit_error_rate" (.call (.attr (.attr (.name "self") "_io") "read_u1") [])]
        [],
       .if_ (.not (.call (.attr (.attr (.name "self") "_io") "is_eof") []))
        [.setattr (.name "self") "rssi" (.call (.attr (.attr (.name "self") "_io") "read_u1") [])]
        []]⟩)]
  properties := []

/-- okdmr/kaitai/homebrew/homebrew2015.py:232-241 -/
def Homebrew2015.TypeRepeaterOptions : ClassDef where
  name := "Homebrew.Homebrew2015.TypeRepeaterOptions"
  methods := [("__init__", ⟨["self", "_io", "_parent", "_root"],
      [.setattr (.name "self") "_io" (.name "_io"),
       .setattr (.name "self") "_parent" (.name "_parent"),
       .setattr (.name "self") "_root" (.ifExp (.name "_root") (.name "_root") (.name "self")),
       .expr (.call (.attr (.name "self") "_read") [])]⟩),
    ("_read", ⟨["self"],
      [.setattr (.name "self") "repeater_id" (.call (.attr (.attr (.name "self") "_io") "read_u4be") []),
       .setattr (.name "self") "options" (.call (.attr (.call (.attr (.attr (.name "self") "_io") "read_bytes_full") []) "decode") [.str "ASCII"])]⟩)]
  properties := []

/-- okdmr/kaitai/homebrew/homebrew2015.py:243-256 -/
def Homebrew2015.TypeRepeaterClosing : ClassDef where
  name := "Homebrew.Homebrew2015.TypeRepeaterClosing"
  methods := [("__init__", ⟨["self", "_io", "_parent", "_root"],
      [.setattr (.name "self") "_io" (.name "_io"),
       .setattr (.name "self") "_parent" (.name "_parent"),
       .setattr (.name "self") "_root" (.ifExp (.name "_root") (.name "_root") (.name "self")),
       .expr (.call (.attr (.name "self") "_read") [])]⟩),
    ("_read", ⟨["self"],
      [.setattr (.name "self") "magic" (.call (.attr (.attr (.name "self") "_io") "read_bytes") [.int 1]),
       .if_ (.not (.cmp .eq (.attr (.name "self") "magic") (.bytes [76])))
        [.raise_ (.call (.attr (.global "kaitaistruct") "ValidationNotEqualError") [.bytes [76], .attr (.name "self") "magic", .attr (.name "self") "_io", .str "/types/type_repeater_closing/seq/0"])]
        [],
       .setattr (.name "self") "repeater_id" (.call (.attr (.attr (.name "self") "_io") "read_u4be") [])]⟩)]
  properties := []

/-- okdmr/kaitai/homebrew/homebrew2015.py:258-280 -/
def Homebrew2015.TypeRepeaterConfiguration : ClassDef where
  name := "Homebrew.Homebrew2015.TypeRepeaterConfiguration"
  methods := [("__init__", ⟨["self", "_io", "_parent", "_root"],
      [.setattr (.name "self") "_io" (.name "_io"),
       .setattr (.name "self") "_parent" (.name "_parent"),
       .setattr (.name "self") "_root" (.ifExp (.name "_root") (.name "_root") (.name "self")),
       .expr (.call (.attr (.name "self") "_read") [])]⟩),
    ("_read", ⟨["self"],
      [.setattr (.name "self") "repeater_id" (.call (.attr (.attr (.name "self") "_io") "read_u4be") []),
       .setattr (.name "self") "call_sign" (.call (.attr (.call (.attr (.attr (.name "self") "_io") "read_bytes") [.int 8]) "decode") [.str "ASCII"]),
       .setattr (.name "self") "rx_freq" (.call (.attr (.call (.attr (.attr (.name "self") "_io") "read_bytes") [.int 9]) "decode") [.str "ASCII"]),
       .setattr (.name "self") "tx_freq" (.call (.attr (.call (.attr (.attr (.name "self") "_io") "read_bytes") [.int 9]) "decode") [.str "ASCII"]),
       .setattr (.name "self") "tx_power" (.call (.attr (.call (.attr (.attr (.name "self") "_io") "read_bytes") [.int 2]) "decode") [.str "ASCII"]),
       .setattr (.name "self") "color_code" (.call (.attr (.call (.attr (.attr (.name "self") "_io") "read_bytes") [.int 2]) "decode") [.str "ASCII"]),
       .setattr (.name "self") "latitude" (.call (.attr (.call (.attr (.attr (.name "self") "_io") "read_bytes") [.int 8]) "decode") [.str "ASCII"]),
       .setattr (.name "self") "longitude" (.call (.attr (.call (.attr (.attr (.name "self") "_io") "read_bytes") [.int 9]) "decode") [.str "ASCII"]),
       .setattr (.name "self") "antenna_height_above_ground" (.call (.attr (.call (.attr (.attr (.name "self") "_io") "read_bytes") [.int 3]) "decode") [.str "ASCII"]),
       .setattr (.name "self") "location" (.call (.attr (.call (.attr (.attr (.name "self") "_io") "read_bytes") [.int 20]) "decode") [.str "ASCII"]),
       .setattr (.name "self") "description" (.call (.attr (.call (.attr (.attr (.name "self") "_io") "read_bytes") [.int 20]) "decode") [.str "ASCII"]),
       .setattr (.name "self") "url" (.call (.attr (.call (.attr (.attr (.name "self") "_io") "read_bytes") [.int 124]) "decode") [.str "ASCII"]),
       .setattr (.name "self") "software_id" (.call (.attr (.call (.attr (.attr (.name "self") "_io") "read_bytes") [.int 40]) "decode") [.str "ASCII"]),
       .setattr (.name "self") "package_id" (.call (.attr (.call (.attr (.attr (.name "self") "_io") "read_bytes") [.int 40]) "decode") [.str "ASCII"]),
       .setattr (.name "self") "unparsed_data" (.call (.attr (.call (.attr (.attr (.name "self") "_io") "read_bytes_full") []) "decode") [.str "ASCII"])]⟩)]
  properties := []

/-- okdmr/kaitai/homebrew/homebrew2015.py:15-291 -/
def Homebrew2015 : ClassDef where
  name := "Homebrew.Homebrew2015"
  methods := [("__init__", ⟨["self", "_io", "_parent", "_root"],
      [.setattr (.name "self") "_io" (.name "_io"),
       .setattr (.name "self") "_parent" (.name "_parent"),
       .setattr (.name "self") "_root" (.ifExp (.name "_root") (.name "_root") (.name "self")),
       .expr (.call (.attr (.name "self") "_read") [])]⟩),
    ("_read", ⟨["self"],
      [.setattr (.name "self") "command_prefix" (.call (.attr (.call (.attr (.attr (.name "self") "_io") "read_bytes") [.int 4]) "decode") [.str "UTF-8"]),
       .assign "_on" (.attr (.name "self") "command_prefix"),
       .if_ (.cmp .eq (.name "_on") (.str "RPTL"))
        [.setattr (.name "self") "command_data" (.call (.cls "Homebrew.Homebrew2015.TypeRepeaterLoginRequest") [.attr (.name "self") "_io", .name "self", .attr (.name "self") "_root"])]
        [.if_ (.cmp .eq (.name "_on") (.str "MSTA"))
          [.setattr (.name "self") "command_data" (.call (.cls "Homebrew.Homebrew2015.TypeMasterRepeaterAck") [.attr (.name "self") "_io", .name "self", .attr (.name "self") "_root"])]
          [.if_ (.cmp .eq (.name "_on") (.str "RPTK"))
            [.setattr (.name "self") "command_data" (.call (.cls "Homebrew.Homebrew2015.TypeRepeaterLoginResponse") [.attr (.name "self") "_io", .name "self", .attr (.name "self") "_root"])]
            [.if_ (.cmp .eq (.name "_on") (.str "RPTC"))
              [.setattr (.name "self") "command_data" (.call (.cls "Homebrew.Homebrew2015.TypeRepeaterConfigurationOrClosing") [.attr (.name "self") "_io", .name "self", .attr (.name "self") "_root"])]
              [.if_ (.cmp .eq (.name "_on") (.str "DMRD"))
                [.setattr (.name "self") "command_data" (.call (.cls "Homebrew.Homebrew2015.TypeDmrData") [.attr (.name "self") "_io", .name "self", .attr (.name "self") "_root"])]
                [.if_ (.cmp .eq (.name "_on") (.str "MSTC"))
                  [.setattr (.name "self") "command_data" (.call (.cls "Homebrew.Homebrew2015.TypeMasterClosing") [.attr (.name "self") "_io", .name "self", .attr (.name "self") "_root"])]
                  [.if_ (.cmp .eq (.name "_on") (.str "RPTP"))
                    [.setattr (.name "self") "command_data" (.call (.cls "Homebrew.Homebrew2015.TypeRepeaterPong") [.attr (.name "self") "_io", .name "self", .attr (.name "self") "_root"])]
                    [.if_ (.cmp .eq (.name "_on") (.str "MSTP"))
                      [.setattr (.name "self") "command_data" (.call (.cls "Homebrew.Homebrew2015.TypeMasterPing") [.attr (.name "self") "_io", .name "self", .attr (.name "self") "_root"])]
                      [.if_ (.cmp .eq (.name "_on") (.str "MSTN"))
                        [.setattr (.name "self") "command_data" (.call (.cls "Homebrew.Homebrew2015.TypeMasterNotAccept") [.attr (.name "self") "_io", .name "self", .attr (.name "self") "_root"])]
                        []]]]]]]]]]⟩)]
  properties := [("fifth_letter", ⟨["self"],
      [.if_ (.call (.global "hasattr") [.name "self", .str "_m_fifth_letter"])
        [.return_ (.attr (.name "self") "_m_fifth_letter")]
        [],
       .assign "_pos" (.call (.attr (.attr (.name "self") "_io") "pos") []),
       .expr (.call (.attr (.attr (.name "self") "_io") "seek") [.int 4]),
       .setattr (.name "self") "_m_fifth_letter" (.call (.attr (.call (.attr (.attr (.name "self") "_io") "read_bytes") [.int 1]) "decode") [.str "ASCII"]),
       .expr (.call (.attr (.attr (.name "self") "_io") "seek") [.name "_pos"]),
       .return_ (.call (.global "getattr") [.name "self", .str "_m_fifth_letter", .none])]⟩)]

/-- okdmr/kaitai/homebrew/homebrew2015.py -/
def Homebrew2015.file : File where
  classes := [Homebrew2015.TypeMasterPing,
    Homebrew2015.TypeRepeaterPong,
    Homebrew2015.TypeRepeaterConfigurationOrClosing,
    Homebrew2015.TypeRepeaterLoginResponse,
    Homebrew2015.TypeRepeaterLoginRequest,
    Homebrew2015.TypeMasterNotAccept,
    Homebrew2015.TypeMasterRepeaterAck,
    Homebrew2015.TypeMasterClosing,
    Homebrew2015.TypeDmrData,
    Homebrew2015.TypeRepeaterOptions,
    Homebrew2015.TypeRepeaterClosing,
    Homebrew2015.TypeRepeaterConfiguration,
    Homebrew2015]
  enums := [Homebrew2015.Timeslots,
    Homebrew2015.CallTypes,
    Homebrew2015.FrameTypes]

end Dmr.Py.Source.Homebrew
