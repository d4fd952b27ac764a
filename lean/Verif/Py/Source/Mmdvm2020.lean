import Verif.Py.Syntax
/-
Generated by tools/mkpyast.py: okdmr/kaitai/homebrew/mmdvm2020.py as data.
-/

set_option autoImplicit false

namespace Dmr.Py.Source.Homebrew

/-- okdmr/kaitai/homebrew/mmdvm2020.py:18-22 -/
def Mmdvm2020.TalkerAliasTypes : EnumDef where
  qualified := "Homebrew.Mmdvm2020.TalkerAliasTypes"
  name := "TalkerAliasTypes"
  members := [("talker_alias_header", 0), ("talker_alias_block_1", 1), ("talker_alias_block_2", 2), ("talker_alias_block_3", 3)]

/-- okdmr/kaitai/homebrew/mmdvm2020.py:24-28 -/
def Mmdvm2020.FrameTypes : EnumDef where
  qualified := "Homebrew.Mmdvm2020.FrameTypes"
  name := "FrameTypes"
  members := [("voice_data", 0), ("voice_sync", 1), ("data_or_data_sync", 2), ("unused", 3)]

/-- okdmr/kaitai/homebrew/mmdvm2020.py:30-32 -/
def Mmdvm2020.CallTypes : EnumDef where
  qualified := "Homebrew.Mmdvm2020.CallTypes"
  name := "CallTypes"
  members := [("group_call", 0), ("private_call", 1)]

/-- okdmr/kaitai/homebrew/mmdvm2020.py:34-42 -/
def Mmdvm2020.PositionErrors : EnumDef where
  qualified := "Homebrew.Mmdvm2020.PositionErrors"
  name := "PositionErrors"
  members := [("less_than_2m", 0), ("less_than_20m", 1), ("less_than_200m", 2), ("less_than_2km", 3), ("less_than_20km", 4), ("less_than_or_equal_200km", 5), ("more_than_200km", 6), ("position_error_unknown_or_invalid", 7)]

/-- okdmr/kaitai/homebrew/mmdvm2020.py:44-46 -/
def Mmdvm2020.Timeslots : EnumDef where
  qualified := "Homebrew.Mmdvm2020.Timeslots"
  name := "Timeslots"
  members := [("timeslot_1", 0), ("timeslot_2", 1)]

/-- okdmr/kaitai/homebrew/mmdvm2020.py:96-112 -/
def Mmdvm2020.TypeMasterPong : ClassDef where
  name := "Homebrew.Mmdvm2020.TypeMasterPong"
  methods := [("__init__", ⟨["self", "_io", "_parent", "_root"],
      [.setattr (.name "self") "_io" (.name "_io"),
       .setattr (.name "self") "_parent" (.name "_parent"),
       .setattr (.name "self") "_root" (.ifExp (.name "_root") (.name "_root") (.name "self")),
       .expr (.call (.attr (.name "self") "_read") [])]⟩),
    ("_read", ⟨["self"],
      [.setattr (.name "self") "magic" (.call (.attr (.attr (.name "self") "_io") "read_bytes") [.int 3]),
       .if_ (.not (.cmp .eq (.attr (.name "self") "magic") (.bytes [79, 78, 71])))
        [.raise_ (.call (.attr (.global "kaitaistruct") "ValidationNotEqualError") [.bytes [79, 78, 71], .attr (.name "self") "magic", .attr (.name "self") "_io", .str "/types/type_master_pong/seq/0"])]
        [],
       .setattr (.name "self") "repeater_id" (.call (.attr (.attr (.name "self") "_io") "read_u4be") [])]⟩)]
  properties := []

/-- okdmr/kaitai/homebrew/mmdvm2020.py:114-130 -/
def Mmdvm2020.TypeRadioPosition : ClassDef where
  name := "Homebrew.Mmdvm2020.TypeRadioPosition"
  methods := [("__init__", ⟨["self", "_io", "_parent", "_root"],
      [.setattr (.name "self") "_io" (.name "_io"),
       .setattr (.name "self") "_parent" (.name "_parent"),
       .setattr (.name "self") "_root" (.ifExp (.name "_root") (.name "_root") (.name "self")),
       .expr (.call (.attr (.name "self") "_read") [])]⟩),
    ("_read", ⟨["self"],
      [.setattr (.name "self") "radio_id" (.call (.attr (.attr (.name "self") "_io") "read_bits_int_be") [.int 24]),
       .setattr (.name "self") "reserved" (.call (.attr (.attr (.name "self") "_io") "read_bits_int_be") [.int 4]),
       .setattr (.name "self") "position_error" (.call (.attr (.global "KaitaiStream") "resolve_enum") [.enum "Homebrew.Mmdvm2020.PositionErrors", .call (.attr (.attr (.name "self") "_io") "read_bits_int_be") [.int 3]]),
       .setattr (.name "self") "longitude" (.call (.attr (.attr (.name "self") "_io") "read_bits_int_be") [.int 25]),
       .setattr (.name "self") "latitude" (.call (.attr (.attr (.name "self") "_io") "read_bits_int_be") [.int 24])]⟩)]
  properties := []

/-- okdmr/kaitai/homebrew/mmdvm2020.py:132-145 -/
def Mmdvm2020.TypeTalkerAlias : ClassDef where
  name := "Homebrew.Mmdvm2020.TypeTalkerAlias"
  methods := [("__init__", ⟨["self", "_io", "_parent", "_root"],
      [.setattr (.name "self") "_io" (.name "_io"),
       .setattr (.name "self") "_parent" (.name "_parent"),
       .setattr (.name "self") "_root" (.ifExp (.name "_root") (.name "_root") (.name "self")),
       .expr (.call (.attr (.name "self") "_read") [])]⟩),
    ("_read", ⟨["self"],
      [.setattr (.name "self") "radio_id" (.call (.attr (.attr (.name "self") "_io") "read_bits_int_be") [.int 24]),
       .expr (.call (.attr (.attr (.name "self") "_io") "align_to_byte") []),
       .setattr (.name "self") "talker_alias_type" (.call (.attr (.global "KaitaiStream") "resolve_enum") [.enum "Homebrew.Mmdvm2020.TalkerAliasTypes", .call (.attr (.attr (.name "self") "_io") "read_u1") []]),
       .setattr (.name "self") "talker_alias" (.call (.attr (.call (.attr (.attr (.name "self") "_io") "read_bytes") [.int 8]) "decode") [.str "ASCII"])]⟩)]
  properties := []

/-- okdmr/kaitai/homebrew/mmdvm2020.py:147-161 -/
def Mmdvm2020.TypeRepeaterConfigurationOrClosing : ClassDef where
  name := "Homebrew.Mmdvm2020.TypeRepeaterConfigurationOrClosing"
  methods := [("__init__", ⟨["self", "_io", "_parent", "_root"],
      [.setattr (.name "self") "_io" (.name "_io"),
       .setattr (.name "self") "_parent" (.name "_parent"),
       .setattr (.name "self") "_root" (.ifExp (.name "_root") (.name "_root") (.name "self")),
       .expr (.call (.attr (.name "self") "_read") [])]⟩),
    ("_read", ⟨["self"],
      [.assign "_on" (.attr (.attr (.name "self") "_root") "fifth_letter"),
       .if_ (.cmp .eq (.name "_on") (.str "L"))
        [.setattr (.name "self") "data" (.call (.cls "Homebrew.Mmdvm2020.TypeRepeaterClosing") [.attr (.name "self") "_io", .name "self", .attr (.name "self") "_root"])]
        [.setattr (.name "self") "data" (.call (.cls "Homebrew.Mmdvm2020.TypeRepeaterConfiguration") [.attr (.name "self") "_io", .name "self", .attr (.name "self") "_root"])]]⟩)]
  properties := []

/-- okdmr/kaitai/homebrew/mmdvm2020.py:163-172 -/
def Mmdvm2020.TypeRepeaterLoginResponse : ClassDef where
  name := "Homebrew.Mmdvm2020.TypeRepeaterLoginResponse"
  methods := [("__init__", ⟨["self", "_io", "_parent", "_root"],
      [.setattr (.name "self") "_io" (.name "_io"),
       .setattr (.name "self") "_parent" (.name "_parent"),
       .setattr (.name "self") "_root" (.ifExp (.name "_root") (.name "_root") (.name "self")),
       .expr (.call (.attr (.name "self") "_read") [])]⟩),
    ("_read", ⟨["self"],
      [.setattr (.name "self") "repeater_id" (.call (.attr (.attr (.name "self") "_io") "read_u4be") []),
       .setattr (.name "self") "sha256" (.call (.attr (.attr (.name "self") "_io") "read_bytes") [.int 32])]⟩)]
  properties := []

/-- okdmr/kaitai/homebrew/mmdvm2020.py:174-182 -/
def Mmdvm2020.TypeRepeaterLoginRequest : ClassDef where
  name := "Homebrew.Mmdvm2020.TypeRepeaterLoginRequest"
  methods := [("__init__", ⟨["self", "_io", "_parent", "_root"],
      [.setattr (.name "self") "_io" (.name "_io"),
       .setattr (.name "self") "_parent" (.name "_parent"),
       .setattr (.name "self") "_root" (.ifExp (.name "_root") (.name "_root") (.name "self")),
       .expr (.call (.attr (.name "self") "_read") [])]⟩),
    ("_read", ⟨["self"],
      [.setattr (.name "self") "repeater_id" (.call (.attr (.attr (.name "self") "_io") "read_u4be") [])]⟩)]
  properties := []

/-- okdmr/kaitai/homebrew/mmdvm2020.py:184-200 -/
def Mmdvm2020.TypeMasterNotAccept : ClassDef where
  name := "Homebrew.Mmdvm2020.TypeMasterNotAccept"
  methods := [("__init__", ⟨["self", "_io", "_parent", "_root"],
      [.setattr (.name "self") "_io" (.name "_io"),
       .setattr (.name "self") "_parent" (.name "_parent"),
       .setattr (.name "self") "_root" (.ifExp (.name "_root") (.name "_root") (.name "self")),
       .expr (.call (.attr (.name "self") "_read") [])]⟩),
    ("_read", ⟨["self"],
      [.setattr (.name "self") "magic" (.call (.attr (.attr (.name "self") "_io") "read_bytes") [.int 2]),
       .if_ (.not (.cmp .eq (.attr (.name "self") "magic") (.bytes [65, 75])))
        [.raise_ (.call (.attr (.global "kaitaistruct") "ValidationNotEqualError") [.bytes [65, 75], .attr (.name "self") "magic", .attr (.name "self") "_io", .str "/types/type_master_not_accept/seq/0"])]
        [],
       .setattr (.name "self") "repeater_id" (.call (.attr (.attr (.name "self") "_io") "read_u4be") [])]⟩)]
  properties := []

/-- okdmr/kaitai/homebrew/mmdvm2020.py:202-210 -/
def Mmdvm2020.TypeUnknown : ClassDef where
  name := "Homebrew.Mmdvm2020.TypeUnknown"
  methods := [("__init__", ⟨["self", "_io", "_parent", "_root"],
      [.setattr (.name "self") "_io" (.name "_io"),
       .setattr (.name "self") "_parent" (.name "_parent"),
       .setattr (.name "self") "_root" (.ifExp (.name "_root") (.name "_root") (.name "self")),
       .expr (.call (.attr (.name "self") "_read") [])]⟩),
    ("_read", ⟨["self"],
      [.setattr (.name "self") "unknown_data" (.call (.attr (.attr (.name "self") "_io") "read_bytes_full") [])]⟩)]
  properties := []

/-- okdmr/kaitai/homebrew/mmdvm2020.py:212-228 -/
def Mmdvm2020.TypeMasterRepeaterAck : ClassDef where
  name := "Homebrew.Mmdvm2020.TypeMasterRepeaterAck"
  methods := [("__init__", ⟨["self", "_io", "_parent", "_root"],
      [.setattr (.name "self") "_io" (.name "_io"),
       .setattr (.name "self") "_parent" (.name "_parent"),
       .setattr (.name "self") "_root" (.ifExp (.name "_root") (.name "_root") (.name "self")),
       .expr (.call (.attr (.name "self") "_read") [])]⟩),
    ("_read", ⟨["self"],
      [.setattr (.name "self") "magic" (.call (.attr (.attr (.name "self") "_io") "read_bytes") [.int 2]),
       .if_ (.not (.cmp .eq (.attr (.name "self") "magic") (.bytes [67, 75])))
        [.raise_ (.call (.attr (.global "kaitaistruct") "ValidationNotEqualError") [.bytes [67, 75], .attr (.name "self") "magic", .attr (.name "self") "_io", .str "/types/type_master_repeater_ack/seq/0"])]
        [],
       .setattr (.name "self") "repeater_id_or_challenge" (.call (.attr (.attr (.name "self") "_io") "read_u4be") [])]⟩)]
  properties := []

/-- okdmr/kaitai/homebrew/mmdvm2020.py:230-243 -/
def Mmdvm2020.TypeMasterClosing : ClassDef where
  name := "Homebrew.Mmdvm2020.TypeMasterClosing"
  methods := [("__init__", ⟨["self", "_io", "_parent", "_root"],
      [.setattr (.name "self") "_io" (.name "_io"),
       .setattr (.name "self") "_parent" (.name "_parent"),
       .setattr (.name "self") "_root" (.ifExp (.name "_root") (.name "_root") (.name "self")),
       .expr (.call (.attr (.name "self") "_read") [])]⟩),
    ("_read", ⟨["self"],
      [.setattr (.name "self") "magic" (.call (.attr (.attr (.name "self") "_io") "read_bytes") [.int 1]),
       .if_ (.not (.cmp .eq (.attr (.name "self") "magic") (.bytes [76])))
        [.raise_ (.call (.attr (.global "kaitaistruct") "ValidationNotEqualError") [.bytes [76], .attr (.name "self") "magic", .attr (.name "self") "_io", .str "/types/type_master_closing/seq/0"])]
        [],
       .setattr (.name "self") "repeater_id" (.call (.attr (.attr (.name "self") "_io") "read_u4be") [])]⟩)]
  properties := []

/-- okdmr/kaitai/homebrew/mmdvm2020.py:245-275 -/
def Mmdvm2020.TypeDmrData : ClassDef where
  name := "Homebrew.Mmdvm2020.TypeDmrData"
  methods := [("__init__", ⟨["self", "_io", "_parent", "_root"],
      [.setattr (.name "self") "_io" (.name "_io"),
       .setattr (.name "self") "_parent" (.name "_parent"),
       .setattr (.name "self") "_root" (.ifExp (.name "_root") (.name "_root") (.name "self")),
       .expr (.call (.attr (.name "self") "_read") [])]⟩),
    ("_read", ⟨["self"],
      [.setattr (.name "self") "sequence_no" (.call (.attr (.attr (.name "self") "_io") "read_u1") []),
       .setattr (.name "self") "source_id" (.call (.attr (.attr (.name "self") "_io") "read_bits_int_be") [.int 24]),
       .setattr (.name "self") "target_id" (.call (.attr (.attr (.name "self") "_io") "read_bits_int_be") [.int 24]),
       .expr (.call (.attr (.attr (.name "self") "_io") "align_to_byte") []),
       .setattr (.name "self") "repeater_id" (.call (.attr (.attr (.name "self") "_io") "read_u4be") []),
       .setattr (.name "self") "slot_no" (.call (.attr (.global "KaitaiStream") "resolve_enum") [.enum "Homebrew.Mmdvm2020.Timeslots", .call (.attr (.attr (.name "self") "_io") "read_bits_int_be") [.int 1]]),
       .setattr (.name "self") "call_type" (.call (.attr (.global "KaitaiStream") "resolve_enum") [.enum "Homebrew.Mmdvm2020.CallTypes", .call (.attr (.attr (.name "self") "_io") "read_bits_int_be") [.int 1]]),
       .setattr (.name "self") "frame_type" (.call (.attr (.global "KaitaiStream") "resolve_enum") [.enum "Homebrew.Mmdvm2020.FrameTypes", .call (.attr (.attr (.name "self") "_io") "read_bits_int_be") [.int 2]]),
       .setattr (.name "self") "data_type" (.call (.attr (.attr (.name "self") "_io") "read_bits_int_be") [.int 4]),
       .expr (.call (.attr (.attr (.name "self") "_io") "align_to_byte") []),
       .setattr (.name "self") "stream_id" (.call (.attr (.attr (.name "self") "_io") "read_u4be") []),
       .setattr (.name "self") "dmr_data" (.call (.attr (.attr (.name "self") "_io") "read_bytes") [.int 33]),
       .if_ (.not (.call (.attr (.attr (.name "self") "_io") "is_eof") []))
        [.setattr (.name "self") "bit_error_rate" (.call (.attr (.attr (.name "self") "_io") "read_u1") [])]
        [],
       .if_ (.not (.call (.attr (.attr (.name "self") "_io") "is_eof") []))
        [.setattr (.name "self") "rssi" (.call (.attr (.attr (.name "self") "_io") "read_u1") [])]
        []]⟩)]
  properties := []

/-- okdmr/kaitai/homebrew/mmdvm2020.py:277-287 -/
def Mmdvm2020.TypeRepeaterBeacon : ClassDef where
  name := "Homebrew.Mmdvm2020.TypeRepeaterBeacon"
  methods := [("__init__", ⟨["self", "_io", "_parent", "_root"],
      [.setattr (.name "self") "_io" (.name "_io"),
       .setattr (.name "self") "_parent" (.name "_parent"),
       .setattr (.name "self") "_root" (.ifExp (.name "_root") (.name "_root") (.name "self")),
       .expr (.call (.attr (.name "self") "_read") [])]⟩),
    ("_read", ⟨["self"],
      [.pass_]⟩)]
  properties := []

/-- okdmr/kaitai/homebrew/mmdvm2020.py:289-298 -/
def Mmdvm2020.TypeRepeaterOptions : ClassDef where
  name := "Homebrew.Mmdvm2020.TypeRepeaterOptions"
  methods := [("__init__", ⟨["self", "_io", "_parent", "_root"],
      [.setattr (.name "self") "_io" (.name "_io"),
       .setattr (.name "self") "_parent" (.name "_parent"),
       .setattr (.name "self") "_root" (.ifExp (.name "_root") (.name "_root") (.name "self")),
       .expr (.call (.attr (.name "self") "_read") [])]⟩),
    ("_read", ⟨["self"],
      [.setattr (.name "self") "repeater_id" (.call (.attr (.attr (.name "self") "_io") "read_u4be") []),
       .setattr (.name "self") "options" (.call (.attr (.call (.attr (.attr (.name "self") "_io") "read_bytes_full") []) "decode") [.str "ASCII"])]⟩)]
  properties := []

/-- okdmr/kaitai/homebrew/mmdvm2020.py:300-313 -/
def Mmdvm2020.TypeRepeaterClosing : ClassDef where
  name := "Homebrew.Mmdvm2020.TypeRepeaterClosing"
  methods := [("__init__", ⟨["self", "_io", "_parent", "_root"],
      [.setattr (.name "self") "_io" (.name "_io"),
       .setattr (.name "self") "_parent" (.name "_parent"),
       .setattr (.name "self") "_root" (.ifExp (.name "_root") (.name "_root") (.name "self")),
       .expr (.call (.attr (.name "self") "_read") [])]⟩),
    ("_read", ⟨["self"],
      [.setattr (.name "self") "magic" (.call (.attr (.attr (.name "self") "_io") "read_bytes") [.int 1]),
       .if_ (.not (.cmp .eq (.attr (.name "self") "magic") (.bytes [76])))
        [.raise_ (.call (.attr (.global "kaitaistruct") "ValidationNotEqualError") [.bytes [76], .attr (.name "self") "magic", .attr (.name "self") "_io", .str "/types/type_repeater_closing/seq/0"])]
        [],
       .setattr (.name "self") "repeater_id" (.call (.attr (.attr (.name "self") "_io") "read_u4be") [])]⟩)]
  properties := []

/-- okdmr/kaitai/homebrew/mmdvm2020.py:315-338 -/
def Mmdvm2020.TypeRepeaterConfiguration : ClassDef where
  name := "Homebrew.Mmdvm2020.TypeRepeaterConfiguration"
  methods := [("__init__", ⟨["self", "_io", "_parent", "_root"],
      [.setattr (.name "self") "_io" (.name "_io"),
       .setattr (.name "self") "_parent" (.name "_parent"),
       .setattr (.name "self") "_root" (.ifExp (.name "_root") (.name "_root") (.name "self")),
       .expr (.call (.attr (.name "self") "_read") [])]⟩),
    ("_read", ⟨["self"],
      [.setattr (.name "self") "repeater_id" (.call (.attr (.attr (.name "self") "_io") "read_u4be") []),
       .setattr (.name "self") "call_sign" (.call (.attr (.call (.attr (.attr (.name "self") "_io") "read_bytes") [.int 8]) "decode") [.str "ASCII"]),
       .setattr (.name "self") "rx_freq" (.call (.attr (.call (.attr (.attr (.name "self") "_io") "read_bytes") [.int 9]) "decode") [.str "ASCII"]),
       .setattr (.name "self") "tx_freq" (.call (.attr (.call (.attr (.attr (.name "self") "_io") "read_bytes") [.int 9]) "decode") [.str "ASCII"]),
       .setattr (.name "self") "tx_power" (.call (.attr (.call (.attr (.attr (.name "self") "_io") "read_bytes") [.int 2]) "decode") [.str "ASCII"]),
       .setattr (.name "self") "color_code" (.call (.attr (.call (.attr (.attr (.name "self") "_io") "read_bytes") [.int 2]) "decode") [.str "ASCII"]),
       .setattr (.name "self") "latitude" (.call (.attr (.call (.attr (.attr (.name "self") "_io") "read_bytes") [.int 8]) "decode") [.str "ASCII"]),
       .setattr (.name "self") "longitude" (.call (.attr (.call (.attr (.attr (.name "self") "_io") "read_bytes") [.int 9]) "decode") [.str "ASCII"]),
       .setattr (.name "self") "antenna_height_above_ground" (.call (.attr (.call (.attr (.attr (.name "self") "_io") "read_bytes") [.int 3]) "decode") [.str "ASCII"]),
       .setattr (.name "self") "location" (.call (.attr (.call (.attr (.attr (.name "self") "_io") "read_bytes") [.int 20]) "decode") [.str "ASCII"]),
       .setattr (.name "self") "description" (.call (.attr (.call (.attr (.attr (.name "self") "_io") "read_bytes") [.int 19]) "decode") [.str "ASCII"]),
       .setattr (.name "self") "slots" (.call (.attr (.call (.attr (.attr (.name "self") "_io") "read_bytes") [.int 1]) "decode") [.str "ASCII"]),
       .setattr (.name "self") "url" (.call (.attr (.call (.attr (.attr (.name "self") "_io") "read_bytes") [.int 124]) "decode") [.str "ASCII"]),
       .setattr (.name "self") "software_id" (.call (.attr (.call (.attr (.attr (.name "self") "_io") "read_bytes") [.int 40]) "decode") [.str "ASCII"]),
       .setattr (.name "self") "package_id" (.call (.attr (.call (.attr (.attr (.name "self") "_io") "read_bytes") [.int 40]) "decode") [.str "ASCII"]),
       .setattr (.name "self") "unparsed_data" (.call (.attr (.call (.attr (.attr (.name "self") "_io") "read_bytes_full") []) "decode") [.str "ASCII"])]⟩)]
  properties := []

/-- okdmr/kaitai/homebrew/mmdvm2020.py:340-356 -/
def Mmdvm2020.TypeRepeaterPing : ClassDef where
  name := "Homebrew.Mmdvm2020.TypeRepeaterPing"
  methods := [("__init__", ⟨["self", "_io", "_parent", "_root"],
      [.setattr (.name "self") "_io" (.name "_io"),
       .setattr (.name "self") "_parent" (.name "_parent"),
       .setattr (.name "self") "_root" (.ifExp (.name "_root") (.name "_root") (.name "self")),
       .expr (.call (.attr (.name "self") "_read") [])]⟩),
    ("_read", ⟨["self"],
      [.setattr (.name "self") "magic" (.call (.attr (.attr (.name "self") "_io") "read_bytes") [.int 3]),
       .if_ (.not (.cmp .eq (.attr (.name "self") "magic") (.bytes [73, 78, 71])))
        [.raise_ (.call (.attr (.global "kaitaistruct") "ValidationNotEqualError") [.bytes [73, 78, 71], .attr (.name "self") "magic", .attr (.name "self") "_io", .str "/types/type_repeater_ping/seq/0"])]
        [],
       .setattr (.name "self") "repeater_id" (.call (.attr (.attr (.name "self") "_io") "read_u4be") [])]⟩)]
  properties := []

/-- okdmr/kaitai/homebrew/mmdvm2020.py:15-367 -/
def Mmdvm2020 : ClassDef where
  name := "Homebrew.Mmdvm2020"
  methods := [("__init__", ⟨["self", "_io", "_parent", "_root"],
      [.setattr (.name "self") "_io" (.name "_io"),
       .setattr (.name "self") "_parent" (.name "_parent"),
       .setattr (.name "self") "_root" (.ifExp (.name "_root") (.name "_root") (.name "self")),
       .expr (.call (.attr (.name "self") "_read") [])]⟩),
    ("_read", ⟨["self"],
      [.setattr (.name "self") "command_prefix" (.call (.attr (.call (.attr (.attr (.name "self") "_io") "read_bytes") [.int 4]) "decode") [.str "ASCII"]),
       .assign "_on" (.attr (.name "self") "command_prefix"),
       .if_ (.cmp .eq (.name "_on") (.str "RPTL"))
        [.setattr (.name "self") "command_data" (.call (.cls "Homebrew.Mmdvm2020.TypeRepeaterLoginRequest") [.attr (.name "self") "_io", .name "self", .attr (.name "self") "_root"])]
        [.if_ (.cmp .eq (.name "_on") (.str "DMRG"))
          [.setattr (.name "self") "command_data" (.call (.cls "Homebrew.Mmdvm2020.TypeRadioPosition") [.attr (.name "self") "_io", .name "self", .attr (.name "self") "_root"])]
          [.if_ (.cmp .eq (.name "_on") (.str "RPTA"))
            [.setattr (.name "self") "command_data" (.call (.cls "Homebrew.Mmdvm2020.TypeMasterRepeaterAck") [.attr (.name "self") "_io", .name "self", .attr (.name "self") "_root"])]
            [.if_ (.cmp .eq (.name "_on") (.str "RPTK"))
              [.setattr (.name "self") "command_data" (.call (.cls "Homebrew.Mmdvm2020.TypeRepeaterLoginResponse") [.attr (.name "self") "_io", .name "self", .attr (.name "self") "_root"])]
              [.if_ (.cmp .eq (.name "_on") (.str "RPTC"))
                [.setattr (.name "self") "command_data" (.call (.cls "Homebrew.Mmdvm2020.TypeRepeaterConfigurationOrClosing") [.attr (.name "self") "_io", .name "self", .attr (.name "self") "_root"])]
                [.if_ (.cmp .eq (.name "_on") (.str "DMRD"))
                  [.setattr (.name "self") "command_data" (.call (.cls "Homebrew.Mmdvm2020.TypeDmrData") [.attr (.name "self") "_io", .name "self", .attr (.name "self") "_root"])]
                  [.if_ (.cmp .eq (.name "_on") (.str "MSTC"))
                    [.setattr (.name "self") "command_data" (.call (.cls "Homebrew.Mmdvm2020.TypeMasterClosing") [.attr (.name "self") "_io", .name "self", .attr (.name "self") "_root"])]
                    [.if_ (.cmp .eq (.name "_on") (.str "RPTP"))
                      [.setattr (.name "self") "command_data" (.call (.cls "Homebrew.Mmdvm2020.TypeRepeaterPing") [.attr (.name "self") "_io", .name "self", .attr (.name "self") "_root"])]
                      [.if_ (.cmp .eq (.name "_on") (.str "RPTO"))
                        [.setattr (.name "self") "command_data" (.call (.cls "Homebrew.Mmdvm2020.TypeRepeaterOptions") [.attr (.name "self") "_io", .name "self", .attr (.name "self") "_root"])]
                        [.if_ (.cmp .eq (.name "_on") (.str "MSTP"))
                          [.setattr (.name "self") "command_data" (.call (.cls "Homebrew.Mmdvm2020.TypeMasterPong") [.attr (.name "self") "_io", .name "self", .attr (.name "self") "_root"])]
                          [.if_ (.cmp .eq (.name "_on") (.str "RPTS"))
                            [.setattr (.name "self") "command_data" (.call (.cls "Homebrew.Mmdvm2020.TypeRepeaterBeacon") [.attr (.name "self") "_io", .name "self", .attr (.name "self") "_root"])]
                            [.if_ (.cmp .eq (.name "_on") (.str "MSTN"))
                              [.setattr (.name "self") "command_data" (.call (.cls "Homebrew.Mmdvm2020.TypeMasterNotAccept") [.attr (.name "self") "_io", .name "self", .attr (.name "self") "_root"])]
                              [.if_ (.cmp .eq (.name "_on") (.str "DMRA"))
                                [.setattr (.name "self") "command_data" (.call (.cls "Homebrew.Mmdvm2020.TypeTalkerAlias") [.attr (.name "self") "_io", .name "self", .attr (.name "self") "_root"])]
                                []]]]]]]]]]]]]]⟩)]
  properties := [("fifth_letter", ⟨["self"],
      [.if_ (.call (.global "hasattr") [.name "self", .str "_m_fifth_letter"])
        [.return_ (.attr (.name "self") "_m_fifth_letter")]
        [],
       .assign "_pos" (.call (.attr (.attr (.name "self") "_io") "pos") []),
       .expr (.call (.attr (.attr (.name "self") "_io") "seek") [.int 4]),
       .setattr (.name "self") "_m_fifth_letter" (.call (.attr (.call (.attr (.attr (.name "self") "_io") "read_bytes") [.int 1]) "decode") [.str "ASCII"]),
       .expr (.call (.attr (.attr (.name "self") "_io") "seek") [.name "_pos"]),
       .return_ (.call (.global "getattr") [.name "self", .str "_m_fifth_letter", .none])]⟩)]

/-- okdmr/kaitai/homebrew/mmdvm2020.py -/
def Mmdvm2020.file : File where
  classes := [Mmdvm2020.TypeMasterPong,
    Mmdvm2020.TypeRadioPosition,
    Mmdvm2020.TypeTalkerAlias,
    Mmdvm2020.TypeRepeaterConfigurationOrClosing,
    Mmdvm2020.TypeRepeaterLoginResponse,
    Mmdvm2020.TypeRepeaterLoginRequest,
    Mmdvm2020.TypeMasterNotAccept,
    Mmdvm2020.TypeUnknown,
    Mmdvm2020.TypeMasterRepeaterAck,
    Mmdvm2020.TypeMasterClosing,
    Mmdvm2020.TypeDmrData,
    Mmdvm2020.TypeRepeaterBeacon,
    Mmdvm2020.TypeRepeaterOptions,
    Mmdvm2020.TypeRepeaterClosing,
    Mmdvm2020.TypeRepeaterConfiguration,
    Mmdvm2020.TypeRepeaterPing,
    Mmdvm2020]
  enums := [Mmdvm2020.TalkerAliasTypes,
    Mmdvm2020.FrameTypes,
    Mmdvm2020.CallTypes,
    Mmdvm2020.PositionErrors,
    Mmdvm2020.Timeslots]

end Dmr.Py.Source.Homebrew
