import Verif.Py.Syntax
/-
Generated by tools/mkpyast.py: okdmr/kaitai/etsi/dmr_csbk.py as data.
-/

set_option autoImplicit false

namespace Dmr.Py.Source.Etsi

/-- okdmr/kaitai/etsi/dmr_csbk.py:18-24 -/
def DmrCsbk.CsbkoTypes : EnumDef where
  qualified := "Etsi.DmrCsbk.CsbkoTypes"
  name := "CsbkoTypes"
  members := [("unit_to_unit_voice_service_request", 4), ("unit_to_unit_voice_service_answer_response", 5), ("channel_timing", 7), ("negative_acknowledge_response", 38), ("bs_outbound_activation_csbk_pdu", 56), ("preamble", 61)]

/-- okdmr/kaitai/etsi/dmr_csbk.py:26-28 -/
def DmrCsbk.CsbkDataOrCsbk : EnumDef where
  qualified := "Etsi.DmrCsbk.CsbkDataOrCsbk"
  name := "CsbkDataOrCsbk"
  members := [("csbk_content_follows_preambles", 0), ("data_content_follows_preambles", 1)]

/-- okdmr/kaitai/etsi/dmr_csbk.py:30-32 -/
def DmrCsbk.CsbkGroupOrIndividual : EnumDef where
  qualified := "Etsi.DmrCsbk.CsbkGroupOrIndividual"
  name := "CsbkGroupOrIndividual"
  members := [("target_address_is_an_individual", 0), ("target_address_is_a_group", 1)]

/-- okdmr/kaitai/etsi/dmr_csbk.py:34-36 -/
def DmrCsbk.AnswerResponse : EnumDef where
  qualified := "Etsi.DmrCsbk.AnswerResponse"
  name := "AnswerResponse"
  members := [("proceed", 32), ("deny", 33)]

/-- okdmr/kaitai/etsi/dmr_csbk.py:72-85 -/
def DmrCsbk.NegativeAckResponseData : ClassDef where
  name := "Etsi.DmrCsbk.NegativeAckResponseData"
  methods := [("__init__", ⟨["self", "_io", "_parent", "_root"],
      [.setattr (.name "self") "_io" (.name "_io"),
       .setattr (.name "self") "_parent" (.name "_parent"),
       .setattr (.name "self") "_root" (.ifExp (.name "_root") (.name "_root") (.name "self")),
       .expr (.call (.attr (.name "self") "_read") [])]⟩),
    ("_read", ⟨["self"],
      [.setattr (.name "self") "additional_information_field" (.cmp .ne (.call (.attr (.attr (.name "self") "_io") "read_bits_int_be") [.int 1]) (.int 0)),
       .setattr (.name "self") "source_type" (.cmp .ne (.call (.attr (.attr (.name "self") "_io") "read_bits_int_be") [.int 1]) (.int 0)),
       .setattr (.name "self") "service_type" (.call (.attr (.attr (.name "self") "_io") "read_bits_int_be") [.int 6]),
       .setattr (.name "self") "reason_code" (.call (.attr (.attr (.name "self") "_io") "read_bits_int_be") [.int 8]),
       .setattr (.name "self") "source_address" (.call (.attr (.attr (.name "self") "_io") "read_bits_int_be") [.int 24]),
       .setattr (.name "self") "target_address" (.call (.attr (.attr (.name "self") "_io") "read_bits_int_be") [.int 24])]⟩)]
  properties := []

/-- okdmr/kaitai/etsi/dmr_csbk.py:87-98 -/
def DmrCsbk.UnitToUnitVoiceRequestData : ClassDef where
  name := "Etsi.DmrCsbk.UnitToUnitVoiceRequestData"
  methods := [("__init__", ⟨["self", "_io", "_parent", "_root"],
      [.setattr (.name "self") "_io" (.name "_io"),
       .setattr (.name "self") "_parent" (.name "_parent"),
       .setattr (.name "self") "_root" (.ifExp (.name "_root") (.name "_root") (.name "self")),
       .expr (.call (.attr (.name "self") "_read") [])]⟩),
    ("_read", ⟨["self"],
      [.setattr (.name "self") "service_options" (.call (.cls "Etsi.DmrCsbk.ServiceOptions") [.attr (.name "self") "_io", .name "self", .attr (.name "self") "_root"]),
       .setattr (.name "self") "reserved" (.call (.attr (.attr (.name "self") "_io") "read_bits_int_be") [.int 8]),
       .setattr (.name "self") "target_address" (.call (.attr (.attr (.name "self") "_io") "read_bits_int_be") [.int 24]),
       .setattr (.name "self") "source_address" (.call (.attr (.attr (.name "self") "_io") "read_bits_int_be") [.int 24])]⟩)]
  properties := []

/-- okdmr/kaitai/etsi/dmr_csbk.py:100-113 -/
def DmrCsbk.ServiceOptions : ClassDef where
  name := "Etsi.DmrCsbk.ServiceOptions"
  methods := [("__init__", ⟨["self", "_io", "_parent", "_root"],
      [.setattr (.name "self") "_io" (.name "_io"),
       .setattr (.name "self") "_parent" (.name "_parent"),
       .setattr (.name "self") "_root" (.ifExp (.name "_root") (.name "_root") (.name "self")),
       .expr (.call (.attr (.name "self") "_read") [])]⟩),
    ("_read", ⟨["self"],
      [.setattr (.name "self") "is_emergency_service" (.cmp .ne (.call (.attr (.attr (.name "self") "_io") "read_bits_int_be") [.int 1]) (.int 0)),
       .setattr (.name "self") "privacy" (.cmp .ne (.call (.attr (.attr (.name "self") "_io") "read_bits_int_be") [.int 1]) (.int 0)),
       .setattr (.name "self") "reserved" (.call (.attr (.attr (.name "self") "_io") "read_bits_int_be") [.int 2]),
       .setattr (.name "self") "is_broadcast_service" (.cmp .ne (.call (.attr (.attr (.name "self") "_io") "read_bits_int_be") [.int 1]) (.int 0)),
       .setattr (.name "self") "is_open_voice_call_mode" (.cmp .ne (.call (.attr (.attr (.name "self") "_io") "read_bits_int_be") [.int 1]) (.int 0)),
       .setattr (.name "self") "priority_level" (.call (.attr (.attr (.name "self") "_io") "read_bits_int_be") [.int 2])]⟩)]
  properties := []

/-- okdmr/kaitai/etsi/dmr_csbk.py:115-132 -/
def DmrCsbk.PreambleData : ClassDef where
  name := "Etsi.DmrCsbk.PreambleData"
  methods := [("__init__", ⟨["self", "_io", "_parent", "_root"],
      [.setattr (.name "self") "_io" (.name "_io"),
       .setattr (.name "self") "_parent" (.name "_parent"),
       .setattr (.name "self") "_root" (.ifExp (.name "_root") (.name "_root") (.name "self")),
       .expr (.call (.attr (.name "self") "_read") [])]⟩),
    ("_read", ⟨["self"],
      [.setattr (.name "self") "preamble_data_or_csbk" (.call (.attr (.global "KaitaiStream") "resolve_enum") [.enum "Etsi.DmrCsbk.CsbkDataOrCsbk", .call (.attr (.attr (.name "self") "_io") "read_bits_int_be") [.int 1]]),
       .setattr (.name "self") "group_or_individual" (.call (.attr (.global "KaitaiStream") "resolve_enum") [.enum "Etsi.DmrCsbk.CsbkGroupOrIndividual", .call (.attr (.attr (.name "self") "_io") "read_bits_int_be") [.int 1]]),
       .setattr (.name "self") "preamble_reserved" (.call (.attr (.attr (.name "self") "_io") "read_bits_int_be") [.int 6]),
       .setattr (.name "self") "preamble_csbk_blocks_to_follow" (.call (.attr (.attr (.name "self") "_io") "read_bits_int_be") [.int 8]),
       .setattr (.name "self") "target_address" (.call (.attr (.attr (.name "self") "_io") "read_bits_int_be") [.int 24]),
       .setattr (.name "self") "source_address" (.call (.attr (.attr (.name "self") "_io") "read_bits_int_be") [.int 24])]⟩)]
  properties := []

/-- okdmr/kaitai/etsi/dmr_csbk.py:134-151 -/
def DmrCsbk.ChannelTimingData : ClassDef where
  name := "Etsi.DmrCsbk.ChannelTimingData"
  methods := [("__init__", ⟨["self", "_io", "_parent", "_root"],
      [.setattr (.name "self") "_io" (.name "_io"),
       .setattr (.name "self") "_parent" (.name "_parent"),
       .setattr (.name "self") "_root" (.ifExp (.name "_root") (.name "_root") (.name "self")),
       .expr (.call (.attr (.name "self") "_read") [])]⟩),
    ("_read", ⟨["self"],
      [.setattr (.name "self") "sync_age" (.call (.attr (.attr (.name "self") "_io") "read_bits_int_be") [.int 11]),
       .setattr (.name "self") "generation" (.call (.attr (.attr (.name "self") "_io") "read_bits_int_be") [.int 5]),
       .setattr (.name "self") "leader_identifier" (.call (.attr (.attr (.name "self") "_io") "read_bits_int_be") [.int 20]),
       .setattr (.name "self") "new_leader" (.cmp .ne (.call (.attr (.attr (.name "self") "_io") "read_bits_int_be") [.int 1]) (.int 0)),
       .setattr (.name "self") "leader_dynamic_identifier" (.call (.attr (.attr (.name "self") "_io") "read_bits_int_be") [.int 2]),
       .setattr (.name "self") "channel_timing_op1" (.cmp .ne (.call (.attr (.attr (.name "self") "_io") "read_bits_int_be") [.int 1]) (.int 0)),
       .setattr (.name "self") "source_identifier" (.call (.attr (.attr (.name "self") "_io") "read_bits_int_be") [.int 20]),
       .setattr (.name "self") "reserved" (.cmp .ne (.call (.attr (.attr (.name "self") "_io") "read_bits_int_be") [.int 1]) (.int 0)),
       .setattr (.name "self") "source_dynamic_identifier" (.call (.attr (.attr (.name "self") "_io") "read_bits_int_be") [.int 2]),
       .setattr (.name "self") "channel_timing_op0" (.cmp .ne (.call (.attr (.attr (.name "self") "_io") "read_bits_int_be") [.int 1]) (.int 0))]⟩)]
  properties := []

/-- okdmr/kaitai/etsi/dmr_csbk.py:153-163 -/
def DmrCsbk.BsOutboundActivationData : ClassDef where
  name := "Etsi.DmrCsbk.BsOutboundActivationData"
  methods := [("__init__", ⟨["self", "_io", "_parent", "_root"],
      [.setattr (.name "self") "_io" (.name "_io"),
       .setattr (.name "self") "_parent" (.name "_parent"),
       .setattr (.name "self") "_root" (.ifExp (.name "_root") (.name "_root") (.name "self")),
       .expr (.call (.attr (.name "self") "_read") [])]⟩),
    ("_read", ⟨["self"],
      [.setattr (.name "self") "reserved" (.call (.attr (.attr (.name "self") "_io") "read_bits_int_be") [.int 16]),
       .setattr (.name "self") "bs_address" (.call (.attr (.attr (.name "self") "_io") "read_bits_int_be") [.int 24]),
       .setattr (.name "self") "source_address" (.call (.attr (.attr (.name "self") "_io") "read_bits_int_be") [.int 24])]⟩)]
  properties := []

/-- okdmr/kaitai/etsi/dmr_csbk.py:165-178 -/
def DmrCsbk.UnitToUnitVoiceAnswerData : ClassDef where
  name := "Etsi.DmrCsbk.UnitToUnitVoiceAnswerData"
  methods := [("__init__", ⟨["self", "_io", "_parent", "_root"],
      [.setattr (.name "self") "_io" (.name "_io"),
       .setattr (.name "self") "_parent" (.name "_parent"),
       .setattr (.name "self") "_root" (.ifExp (.name "_root") (.name "_root") (.name "self")),
       .expr (.call (.attr (.name "self") "_read") [])]⟩),
    ("_read", ⟨["self"],
      [.setattr (.name "self") "service_options" (.call (.cls "Etsi.DmrCsbk.ServiceOptions") [.attr (.name "self") "_io", .name "self", .attr (.name "self") "_root"]),
       .setattr (.name "self") "answer_response" (.call (.attr (.global "KaitaiStream") "resolve_enum") [.enum "Etsi.DmrCsbk.AnswerResponse", .call (.attr (.attr (.name "self") "_io") "read_bits_int_be") [.int 8]]),
       .setattr (.name "self") "target_address" (.call (.attr (.attr (.name "self") "_io") "read_bits_int_be") [.int 24]),
       .setattr (.name "self") "source_address" (.call (.attr (.attr (.name "self") "_io") "read_bits_int_be") [.int 24])]⟩)]
  properties := []

/-- okdmr/kaitai/etsi/dmr_csbk.py:15-178 -/
def DmrCsbk : ClassDef where
  name := "Etsi.DmrCsbk"
  methods := [("__init__", ⟨["self", "_io", "_parent", "_root"],
      [.setattr (.name "self") "_io" (.name "_io"),
       .setattr (.name "self") "_parent" (.name "_parent"),
       .setattr (.name "self") "_root" (.ifExp (.name "_root") (.name "_root") (.name "self")),
       .expr (.call (.attr (.name "self") "_read") [])]⟩),
    ("_read", ⟨["self"],
      [.setattr (.name "self") "last_block" (.cmp .ne (.call (.attr (.attr (.name "self") "_io") "read_bits_int_be") [.int 1]) (.int 0)),
       .setattr (.name "self") "protect_flag" (.cmp .ne (.call (.attr (.attr (.name "self") "_io") "read_bits_int_be") [.int 1]) (.int 0)),
       .setattr (.name "self") "csbk_opcode" (.call (.attr (.global "KaitaiStream") "resolve_enum") [.enum "Etsi.DmrCsbk.CsbkoTypes", .call (.attr (.attr (.name "self") "_io") "read_bits_int_be") [.int 6]]),
       .setattr (.name "self") "feature_set_id" (.call (.attr (.attr (.name "self") "_io") "read_bits_int_be") [.int 8]),
       .expr (.call (.attr (.attr (.name "self") "_io") "align_to_byte") []),
       .assign "_on" (.attr (.name "self") "csbk_opcode"),
       .if_ (.cmp .eq (.name "_on") (.attr (.enum "Etsi.DmrCsbk.CsbkoTypes") "unit_to_unit_voice_service_answer_response"))
        [.setattr (.name "self") "csbk_data" (.call (.cls "Etsi.DmrCsbk.UnitToUnitVoiceAnswerData") [.attr (.name "self") "_io", .name "self", .attr (.name "self") "_root"])]
        [.if_ (.cmp .eq (.name "_on") (.attr (.enum "Etsi.DmrCsbk.CsbkoTypes") "preamble"))
          [.setattr (.name "self") "csbk_data" (.call (.cls "Etsi.DmrCsbk.PreambleData") [.attr (.name "self") "_io", .name "self", .attr (.name "self") "_root"])]
          [.if_ (.cmp .eq (.name "_on") (.attr (.enum "Etsi.DmrCsbk.CsbkoTypes") "channel_timing"))
            [.setattr (.name "self") "csbk_data" (.call (.cls "Etsi.DmrCsbk.ChannelTimingData") [.attr (.name "self") "_io", .name "self", .attr (.name "self") "_root"])]
            [.if_ (.cmp .eq (.name "_on") (.attr (.enum "Etsi.DmrCsbk.CsbkoTypes") "unit_to_unit_voice_service_request"))
              [.setattr (.name "self") "csbk_data" (.call (.cls "Etsi.DmrCsbk.UnitToUnitVoiceRequestData") [.attr (.name "self") "_io", .name "self", .attr (.name "self") "_root"])]
              [.if_ (.cmp .eq (.name "_on") (.attr (.enum "Etsi.DmrCsbk.CsbkoTypes") "bs_outbound_activation_csbk_pdu"))
                [.setattr (.name "self") "csbk_data" (.call (.cls "Etsi.DmrCsbk.BsOutboundActivationData") [.attr (.name "self") "_io", .name "self", .attr (.name "self") "_root"])]
                [.if_ (.cmp .eq (.name "_on") (.attr (.enum "Etsi.DmrCsbk.CsbkoTypes") "negative_acknowledge_response"))
                  [.setattr (.name "self") "csbk_data" (.call (.cls "Etsi.DmrCsbk.NegativeAckResponseData") [.attr (.name "self") "_io", .name "self", .attr (.name "self") "_root"])]
                  []]]]]]]⟩)]
  properties := []

/-- okdmr/kaitai/etsi/dmr_csbk.py -/
def DmrCsbk.file : File where
  classes := [DmrCsbk.NegativeAckResponseData,
    DmrCsbk.UnitToUnitVoiceRequestData,
    DmrCsbk.ServiceOptions,
    DmrCsbk.PreambleData,
    DmrCsbk.ChannelTimingData,
    DmrCsbk.BsOutboundActivationData,
    DmrCsbk.UnitToUnitVoiceAnswerData,
    DmrCsbk]
  enums := [DmrCsbk.CsbkoTypes,
    DmrCsbk.CsbkDataOrCsbk,
    DmrCsbk.CsbkGroupOrIndividual,
    DmrCsbk.AnswerResponse]

end Dmr.Py.Source.Etsi
