import Verif.Py.Syntax
/-
Generated by tools/mkpyast.py: okdmr/kaitai/etsi/full_link_control.py as data.
-/

set_option autoImplicit false

namespace Dmr.Py.Source.Etsi

/-- okdmr/kaitai/etsi/full_link_control.py:18-25 -/
def FullLinkControl.Flcos : EnumDef where
  qualified := "Etsi.FullLinkControl.Flcos"
  name := "Flcos"
  members := [("group_voice", 0), ("unit_to_unit_voice", 3), ("talker_alias_header", 4), ("talker_alias_block1", 5), ("talker_alias_block2", 6), ("talker_alias_block3", 7), ("gps_info", 8)]

/-- okdmr/kaitai/etsi/full_link_control.py:27-35 -/
def FullLinkControl.PositionErrors : EnumDef where
  qualified := "Etsi.FullLinkControl.PositionErrors"
  name := "PositionErrors"
  members := [("less_than_2m", 0), ("less_than_20m", 1), ("less_than_200m", 2), ("less_than_2km", 3), ("less_than_20km", 4), ("less_than_or_equal_200km", 5), ("more_than_200km", 6), ("position_error_unknown_or_invalid", 7)]

/-- okdmr/kaitai/etsi/full_link_control.py:37-41 -/
def FullLinkControl.TalkerDataFormats : EnumDef where
  qualified := "Etsi.FullLinkControl.TalkerDataFormats"
  name := "TalkerDataFormats"
  members := [("coding_7bit", 0), ("coding_8bit", 1), ("unicode_utf8", 2), ("unicode_utf16", 3)]

/-- okdmr/kaitai/etsi/full_link_control.py:43-51 -/
def FullLinkControl.FeatureSetIds : EnumDef where
  qualified := "Etsi.FullLinkControl.FeatureSetIds"
  name := "FeatureSetIds"
  members := [("standardized_ts_102_361_2", 0), ("reserved1", 1), ("reserved2", 2), ("reserved3", 3), ("mfid_start", 4), ("mfid_end", 127), ("mfid_reserved_start", 128), ("mfid_reserved_end", 255)]

/-- okdmr/kaitai/etsi/full_link_control.py:104-117 -/
def FullLinkControl.GpsInfoLcPdu : ClassDef where
  name := "Etsi.FullLinkControl.GpsInfoLcPdu"
  methods := [("__init__", ⟨["self", "_io", "_parent", "_root"],
      [.setattr (.name "self") "_io" (.name "_io"),
       .setattr (.name "self") "_parent" (.name "_parent"),
       .setattr (.name "self") "_root" (.ifExp (.name "_root") (.name "_root") (.name "self")),
       .expr (.call (.attr (.name "self") "_read") [])]⟩),
    ("_read", ⟨["self"],
      [.setattr (.name "self") "reserved" (.call (.attr (.attr (.name "self") "_io") "read_bits_int_be") [.int 4]),
       .setattr (.name "self") "position_error" (.call (.attr (.global "KaitaiStream") "resolve_enum") [.enum "Etsi.FullLinkControl.PositionErrors", .call (.attr (.attr (.name "self") "_io") "read_bits_int_be") [.int 3]]),
       .setattr (.name "self") "longitude" (.call (.attr (.attr (.name "self") "_io") "read_bits_int_be") [.int 25]),
       .setattr (.name "self") "latitude" (.call (.attr (.attr (.name "self") "_io") "read_bits_int_be") [.int 24])]⟩)]
  properties := []

/-- okdmr/kaitai/etsi/full_link_control.py:119-129 -/
def FullLinkControl.GroupVoiceChannelUser : ClassDef where
  name := "Etsi.FullLinkControl.GroupVoiceChannelUser"
  methods := [("__init__", ⟨["self", "_io", "_parent", "_root"],
      [.setattr (.name "self") "_io" (.name "_io"),
       .setattr (.name "self") "_parent" (.name "_parent"),
       .setattr (.name "self") "_root" (.ifExp (.name "_root") (.name "_root") (.name "self")),
       .expr (.call (.attr (.name "self") "_read") [])]⟩),
    ("_read", ⟨["self"],
      [.setattr (.name "self") "service_options" (.call (.attr (.attr (.name "self") "_io") "read_bits_int_be") [.int 8]),
       .setattr (.name "self") "group_address" (.call (.attr (.attr (.name "self") "_io") "read_bits_int_be") [.int 24]),
       .setattr (.name "self") "source_address" (.call (.attr (.attr (.name "self") "_io") "read_bits_int_be") [.int 24])]⟩)]
  properties := []

/-- okdmr/kaitai/etsi/full_link_control.py:131-141 -/
def FullLinkControl.UnitToUnitVoiceChannelUser : ClassDef where
  name := "Etsi.FullLinkControl.UnitToUnitVoiceChannelUser"
  methods := [("__init__", ⟨["self", "_io", "_parent", "_root"],
      [.setattr (.name "self") "_io" (.name "_io"),
       .setattr (.name "self") "_parent" (.name "_parent"),
       .setattr (.name "self") "_root" (.ifExp (.name "_root") (.name "_root") (.name "self")),
       .expr (.call (.attr (.name "self") "_read") [])]⟩),
    ("_read", ⟨["self"],
      [.setattr (.name "self") "service_options" (.call (.attr (.attr (.name "self") "_io") "read_bits_int_be") [.int 8]),
       .setattr (.name "self") "target_address" (.call (.attr (.attr (.name "self") "_io") "read_bits_int_be") [.int 24]),
       .setattr (.name "self") "source_address" (.call (.attr (.attr (.name "self") "_io") "read_bits_int_be") [.int 24])]⟩)]
  properties := []

/-- okdmr/kaitai/etsi/full_link_control.py:143-155 -/
def FullLinkControl.TalkerAliasHeader : ClassDef where
  name := "Etsi.FullLinkControl.TalkerAliasHeader"
  methods := [("__init__", ⟨["self", "_io", "_parent", "_root"],
      [.setattr (.name "self") "_io" (.name "_io"),
       .setattr (.name "self") "_parent" (.name "_parent"),
       .setattr (.name "self") "_root" (.ifExp (.name "_root") (.name "_root") (.name "self")),
       .expr (.call (.attr (.name "self") "_read") [])]⟩),
    ("_read", ⟨["self"],
      [.setattr (.name "self") "talker_alias_data_format" (.call (.attr (.global "KaitaiStream") "resolve_enum") [.enum "Etsi.FullLinkControl.TalkerDataFormats", .call (.attr (.attr (.name "self") "_io") "read_bits_int_be") [.int 2]]),
       .setattr (.name "self") "talker_alias_data_length" (.call (.attr (.attr (.name "self") "_io") "read_bits_int_be") [.int 5]),
       .setattr (.name "self") "talker_alias_data" (.call (.attr (.attr (.name "self") "_io") "read_bits_int_be") [.int 49])]⟩)]
  properties := []

/-- okdmr/kaitai/etsi/full_link_control.py:157-165 -/
def FullLinkControl.TalkerAliasContinuation : ClassDef where
  name := "Etsi.FullLinkControl.TalkerAliasContinuation"
  methods := [("__init__", ⟨["self", "_io", "_parent", "_root"],
      [.setattr (.name "self") "_io" (.name "_io"),
       .setattr (.name "self") "_parent" (.name "_parent"),
       .setattr (.name "self") "_root" (.ifExp (.name "_root") (.name "_root") (.name "self")),
       .expr (.call (.attr (.name "self") "_read") [])]⟩),
    ("_read", ⟨["self"],
      [.setattr (.name "self") "talker_alias_data" (.call (.attr (.attr (.name "self") "_io") "read_bits_int_be") [.int 56])]⟩)]
  properties := []

/-- okdmr/kaitai/etsi/full_link_control.py:15-165 -/
def FullLinkControl : ClassDef where
  name := "Etsi.FullLinkControl"
  methods := [("__init__", ⟨["self", "_io", "_parent", "_root"],
      [.setattr (.name "self") "_io" (.name "_io"),
       .setattr (.name "self") "_parent" (.name "_parent"),
       .setattr (.name "self") "_root" (.ifExp (.name "_root") (.name "_root") (.name "self")),
       .expr (.call (.attr (.name "self") "_read") [])]⟩),
    ("_read", ⟨["self"],
      [.setattr (.name "self") "protect_flag" (.cmp .ne (.call (.attr (.attr (.name "self") "_io") "read_bits_int_be") [.int 1]) (.int 0)),
       .setattr (.name "self") "reserved" (.cmp .ne (.call (.attr (.attr (.name "self") "_io") "read_bits_int_be") [.int 1]) (.int 0)),
       .setattr (.name "self") "full_link_control_opcode" (.call (.attr (.global "KaitaiStream") "resolve_enum") [.enum "Etsi.FullLinkControl.Flcos", .call (.attr (.attr (.name "self") "_io") "read_bits_int_be") [.int 6]]),
       .setattr (.name "self") "feature_set_id" (.call (.attr (.global "KaitaiStream") "resolve_enum") [.enum "Etsi.FullLinkControl.FeatureSetIds", .call (.attr (.attr (.name "self") "_io") "read_bits_int_be") [.int 8]]),
       .expr (.call (.attr (.attr (.name "self") "_io") "align_to_byte") []),
       .assign "_on" (.attr (.name "self") "full_link_control_opcode"),
       .if_ (.cmp .eq (.name "_on") (.attr (.enum "Etsi.FullLinkControl.Flcos") "talker_alias_header"))
        [.setattr (.name "self") "specific_data" (.call (.cls "Etsi.FullLinkControl.TalkerAliasHeader") [.attr (.name "self") "_io", .name "self", .attr (.name "self") "_root"])]
        [.if_ (.cmp .eq (.name "_on") (.attr (.enum "Etsi.FullLinkControl.Flcos") "unit_to_unit_voice"))
          [.setattr (.name "self") "specific_data" (.call (.cls "Etsi.FullLinkControl.UnitToUnitVoiceChannelUser") [.attr (.name "self") "_io", .name "self", .attr (.name "self") "_root"])]
          [.if_ (.cmp .eq (.name "_on") (.attr (.enum "Etsi.FullLinkControl.Flcos") "group_voice"))
            [.setattr (.name "self") "specific_data" (.call (.cls "Etsi.FullLinkControl.GroupVoiceChannelUser") [.attr (.name "self") "_io", .name "self", .attr (.name "self") "_root"])]
            [.if_ (.cmp .eq (.name "_on") (.attr (.enum "Etsi.FullLinkControl.Flcos") "talker_alias_block3"))
              [.setattr (.name "self") "specific_data" (.call (.cls "Etsi.FullLinkControl.TalkerAliasContinuation") [.attr (.name "self") "_io", .name "self", .attr (.name "self") "_root"])]
              [.if_ (.cmp .eq (.name "_on") (.attr (.enum "Etsi.FullLinkControl.Flcos") "talker_alias_block1"))
                [.setattr (.name "self") "specific_data" (.call (.cls "Etsi.FullLinkControl.TalkerAliasContinuation") [.attr (.name "self") "_io", .name "self", .attr (.name "self") "_root"])]
                [.if_ (.cmp .eq (.name "_on") (.attr (.enum "Etsi.FullLinkControl.Flcos") "talker_alias_block2"))
                  [.setattr (.name "self") "specific_data" (.call (.cls "Etsi.FullLinkControl.TalkerAliasContinuation") [.attr (.name "self") "_io", .name "self", .attr (.name "self") "_root"])]
                  [.if_ (.cmp .eq (.name "_on") (.attr (.enum "Etsi.FullLinkControl.Flcos") "gps_info"))
                    [.setattr (.name "self") "specific_data" (.call (.cls "Etsi.FullLinkControl.GpsInfoLcPdu") [.attr (.name "self") "_io", .name "self", .attr (.name "self") "_root"])]
                    []]]]]]],
       .if_ (.cmp .ge (.bin .sub (.call (.attr (.attr (.name "self") "_io") "size") []) (.call (.attr (.attr (.name "self") "_io") "pos") [])) (.int 3))
        [.setattr (.name "self") "crc_checksum" (.call (.attr (.attr (.name "self") "_io") "read_bytes") [.int 3])]
        [],
       .if_ (.cmp .le (.call (.attr (.attr (.name "self") "_io") "size") []) (.int 10))
        [.setattr (.name "self") "cs5_checksum" (.call (.attr (.attr (.name "self") "_io") "read_bits_int_be") [.int 5])]
        []]⟩)]
  properties := []

/-- okdmr/kaitai/etsi/full_link_control.py -/
def FullLinkControl.file : File where
  classes := [FullLinkControl.GpsInfoLcPdu,
    FullLinkControl.GroupVoiceChannelUser,
    FullLinkControl.UnitToUnitVoiceChannelUser,
    FullLinkControl.TalkerAliasHeader,
    FullLinkControl.TalkerAliasContinuation,
    FullLinkControl]
  enums := [FullLinkControl.Flcos,
    FullLinkControl.PositionErrors,
    FullLinkControl.TalkerDataFormats,
    FullLinkControl.FeatureSetIds]

end Dmr.Py.Source.Etsi
