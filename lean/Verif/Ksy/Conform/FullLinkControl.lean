import Verif.Ksy.Conform.Base
/-
Generated by tools/mkconform.py: the schema of `FullLinkControl` against the model of the Python classes.
-/

set_option linter.unusedSimpArgs false
set_option maxHeartbeats 1000000

namespace Dmr.Ksy.Etsi

@[ksy] theorem resolve_FullLinkControl_Flcos (v : Nat) : Etsi.FullLinkControl.Flcos.resolve v = EnumVal.toPy "Flcos" (resolveEnum Dmr.Etsi.FullLinkControl.Flcos v) :=
  resolve_eq _ (by decide) v

@[ksy ↓] theorem read_FullLinkControl_Flcos_b6 (ev sub) : readTy ev sub (.bitsEnum 6 Etsi.FullLinkControl.Flcos) =
    asEnum Dmr.Etsi.FullLinkControl.Flcos (readBitsIntBe 6) >>= fun e => pure (some (EnumVal.toPy "Flcos" e)) :=
  enum_bits resolve_FullLinkControl_Flcos ev sub 6

@[ksy] theorem member_FullLinkControl_Flcos_gps_info : Etsi.FullLinkControl.Flcos.member "gps_info" = pure (.enum "Flcos" 8) := rfl

@[ksy] theorem same_FullLinkControl_Flcos_gps_info (on : EnumVal Dmr.Etsi.FullLinkControl.Flcos) :
    same (EnumVal.toPy "Flcos" on) (.enum "Flcos" 8) = decide (on = .known .gps_info) :=
  same_known _ _ Dmr.Etsi.FullLinkControl.Flcos.gps_info

@[ksy] theorem member_FullLinkControl_Flcos_group_voice : Etsi.FullLinkControl.Flcos.member "group_voice" = pure (.enum "Flcos" 0) := rfl

@[ksy] theorem same_FullLinkControl_Flcos_group_voice (on : EnumVal Dmr.Etsi.FullLinkControl.Flcos) :
    same (EnumVal.toPy "Flcos" on) (.enum "Flcos" 0) = decide (on = .known .group_voice) :=
  same_known _ _ Dmr.Etsi.FullLinkControl.Flcos.group_voice

@[ksy] theorem member_FullLinkControl_Flcos_talker_alias_block1 : Etsi.FullLinkControl.Flcos.member "talker_alias_block1" = pure (.enum "Flcos" 5) := rfl

@[ksy] theorem same_FullLinkControl_Flcos_talker_alias_block1 (on : EnumVal Dmr.Etsi.FullLinkControl.Flcos) :
    same (EnumVal.toPy "Flcos" on) (.enum "Flcos" 5) = decide (on = .known .talker_alias_block1) :=
  same_known _ _ Dmr.Etsi.FullLinkControl.Flcos.talker_alias_block1

@[ksy] theorem member_FullLinkControl_Flcos_talker_alias_block2 : Etsi.FullLinkControl.Flcos.member "talker_alias_block2" = pure (.enum "Flcos" 6) := rfl

@[ksy] theorem same_FullLinkControl_Flcos_talker_alias_block2 (on : EnumVal Dmr.Etsi.FullLinkControl.Flcos) :
    same (EnumVal.toPy "Flcos" on) (.enum "Flcos" 6) = decide (on = .known .talker_alias_block2) :=
  same_known _ _ Dmr.Etsi.FullLinkControl.Flcos.talker_alias_block2

@[ksy] theorem member_FullLinkControl_Flcos_talker_alias_block3 : Etsi.FullLinkControl.Flcos.member "talker_alias_block3" = pure (.enum "Flcos" 7) := rfl

@[ksy] theorem same_FullLinkControl_Flcos_talker_alias_block3 (on : EnumVal Dmr.Etsi.FullLinkControl.Flcos) :
    same (EnumVal.toPy "Flcos" on) (.enum "Flcos" 7) = decide (on = .known .talker_alias_block3) :=
  same_known _ _ Dmr.Etsi.FullLinkControl.Flcos.talker_alias_block3

@[ksy] theorem member_FullLinkControl_Flcos_talker_alias_header : Etsi.FullLinkControl.Flcos.member "talker_alias_header" = pure (.enum "Flcos" 4) := rfl

@[ksy] theorem same_FullLinkControl_Flcos_talker_alias_header (on : EnumVal Dmr.Etsi.FullLinkControl.Flcos) :
    same (EnumVal.toPy "Flcos" on) (.enum "Flcos" 4) = decide (on = .known .talker_alias_header) :=
  same_known _ _ Dmr.Etsi.FullLinkControl.Flcos.talker_alias_header

@[ksy] theorem member_FullLinkControl_Flcos_unit_to_unit_voice : Etsi.FullLinkControl.Flcos.member "unit_to_unit_voice" = pure (.enum "Flcos" 3) := rfl

@[ksy] theorem same_FullLinkControl_Flcos_unit_to_unit_voice (on : EnumVal Dmr.Etsi.FullLinkControl.Flcos) :
    same (EnumVal.toPy "Flcos" on) (.enum "Flcos" 3) = decide (on = .known .unit_to_unit_voice) :=
  same_known _ _ Dmr.Etsi.FullLinkControl.Flcos.unit_to_unit_voice

@[ksy] theorem resolve_FullLinkControl_PositionErrors (v : Nat) : Etsi.FullLinkControl.PositionErrors.resolve v = EnumVal.toPy "PositionErrors" (resolveEnum Dmr.Etsi.FullLinkControl.PositionErrors v) :=
  resolve_eq _ (by decide) v

@[ksy ↓] theorem read_FullLinkControl_PositionErrors_b3 (ev sub) : readTy ev sub (.bitsEnum 3 Etsi.FullLinkControl.PositionErrors) =
    asEnum Dmr.Etsi.FullLinkControl.PositionErrors (readBitsIntBe 3) >>= fun e => pure (some (EnumVal.toPy "PositionErrors" e)) :=
  enum_bits resolve_FullLinkControl_PositionErrors ev sub 3

@[ksy] theorem resolve_FullLinkControl_TalkerDataFormats (v : Nat) : Etsi.FullLinkControl.TalkerDataFormats.resolve v = EnumVal.toPy "TalkerDataFormats" (resolveEnum Dmr.Etsi.FullLinkControl.TalkerDataFormats v) :=
  resolve_eq _ (by decide) v

@[ksy ↓] theorem read_FullLinkControl_TalkerDataFormats_b2 (ev sub) : readTy ev sub (.bitsEnum 2 Etsi.FullLinkControl.TalkerDataFormats) =
    asEnum Dmr.Etsi.FullLinkControl.TalkerDataFormats (readBitsIntBe 2) >>= fun e => pure (some (EnumVal.toPy "TalkerDataFormats" e)) :=
  enum_bits resolve_FullLinkControl_TalkerDataFormats ev sub 2

@[ksy] theorem resolve_FullLinkControl_FeatureSetIds (v : Nat) : Etsi.FullLinkControl.FeatureSetIds.resolve v = EnumVal.toPy "FeatureSetIds" (resolveEnum Dmr.Etsi.FullLinkControl.FeatureSetIds v) :=
  resolve_eq _ (by decide) v

@[ksy ↓] theorem read_FullLinkControl_FeatureSetIds_b8 (ev sub) : readTy ev sub (.bitsEnum 8 Etsi.FullLinkControl.FeatureSetIds) =
    asEnum Dmr.Etsi.FullLinkControl.FeatureSetIds (readBitsIntBe 8) >>= fun e => pure (some (EnumVal.toPy "FeatureSetIds" e)) :=
  enum_bits resolve_FullLinkControl_FeatureSetIds ev sub 8

/-- okdmr/kaitai/etsi/full_link_control.ksy:40-46 against `Dmr.Etsi.FullLinkControl.GroupVoiceChannelUser`. -/
@[ksy ↓] theorem FullLinkControl_GroupVoiceChannelUser_conforms (n : Nat) (sc : Scope) :
    parse (n + 1) sc Etsi.FullLinkControl.GroupVoiceChannelUser = (fun x => view (Dmr.Etsi.FullLinkControl.GroupVoiceChannelUser.toPy x)) <$> Dmr.Etsi.FullLinkControl.GroupVoiceChannelUser.read := by
  rw [parse_succ]
  ksy_simp [Dmr.Etsi.FullLinkControl.GroupVoiceChannelUser.read, Dmr.Etsi.FullLinkControl.GroupVoiceChannelUser.toPy]

/-- okdmr/kaitai/etsi/full_link_control.ksy:48-54 against `Dmr.Etsi.FullLinkControl.UnitToUnitVoiceChannelUser`. -/
@[ksy ↓] theorem FullLinkControl_UnitToUnitVoiceChannelUser_conforms (n : Nat) (sc : Scope) :
    parse (n + 1) sc Etsi.FullLinkControl.UnitToUnitVoiceChannelUser = (fun x => view (Dmr.Etsi.FullLinkControl.UnitToUnitVoiceChannelUser.toPy x)) <$> Dmr.Etsi.FullLinkControl.UnitToUnitVoiceChannelUser.read := by
  rw [parse_succ]
  ksy_simp [Dmr.Etsi.FullLinkControl.UnitToUnitVoiceChannelUser.read, Dmr.Etsi.FullLinkControl.UnitToUnitVoiceChannelUser.toPy]

/-- okdmr/kaitai/etsi/full_link_control.ksy:56-65 against `Dmr.Etsi.FullLinkControl.GpsInfoLcPdu`. -/
@[ksy ↓] theorem FullLinkControl_GpsInfoLcPdu_conforms (n : Nat) (sc : Scope) :
    parse (n + 1) sc Etsi.FullLinkControl.GpsInfoLcPdu = (fun x => view (Dmr.Etsi.FullLinkControl.GpsInfoLcPdu.toPy x)) <$> Dmr.Etsi.FullLinkControl.GpsInfoLcPdu.read := by
  rw [parse_succ]
  ksy_simp [Dmr.Etsi.FullLinkControl.GpsInfoLcPdu.read, Dmr.Etsi.FullLinkControl.GpsInfoLcPdu.toPy]

/-- okdmr/kaitai/etsi/full_link_control.ksy:67-75 against `Dmr.Etsi.FullLinkControl.TalkerAliasHeader`. -/
@[ksy ↓] theorem FullLinkControl_TalkerAliasHeader_conforms (n : Nat) (sc : Scope) :
    parse (n + 1) sc Etsi.FullLinkControl.TalkerAliasHeader = (fun x => view (Dmr.Etsi.FullLinkControl.TalkerAliasHeader.toPy x)) <$> Dmr.Etsi.FullLinkControl.TalkerAliasHeader.read := by
  rw [parse_succ]
  ksy_simp [Dmr.Etsi.FullLinkControl.TalkerAliasHeader.read, Dmr.Etsi.FullLinkControl.TalkerAliasHeader.toPy]

/-- okdmr/kaitai/etsi/full_link_control.ksy:77-80 against `Dmr.Etsi.FullLinkControl.TalkerAliasContinuation`. -/
@[ksy ↓] theorem FullLinkControl_TalkerAliasContinuation_conforms (n : Nat) (sc : Scope) :
    parse (n + 1) sc Etsi.FullLinkControl.TalkerAliasContinuation = (fun x => view (Dmr.Etsi.FullLinkControl.TalkerAliasContinuation.toPy x)) <$> Dmr.Etsi.FullLinkControl.TalkerAliasContinuation.read := by
  rw [parse_succ]
  ksy_simp [Dmr.Etsi.FullLinkControl.TalkerAliasContinuation.read, Dmr.Etsi.FullLinkControl.TalkerAliasContinuation.toPy]

/-- okdmr/kaitai/etsi/full_link_control.ksy:1-111 against `Dmr.Etsi.FullLinkControl`. -/
@[ksy ↓] theorem FullLinkControl_conforms (n : Nat) (sc : Scope) :
    parse (n + 2) sc Etsi.FullLinkControl = (fun x => view (Dmr.Etsi.FullLinkControl.toPy x)) <$> Dmr.Etsi.FullLinkControl.read := by
  rw [parse_succ]
  ksy_simp [Dmr.Etsi.FullLinkControl.read, Dmr.Etsi.FullLinkControl.toPy]
  ksy_switch Dmr.Etsi.FullLinkControl.readSpecificData Dmr.Etsi.FullLinkControl.SpecificDataUnion.toPy Dmr.Etsi.FullLinkControl.Flcos

end Dmr.Ksy.Etsi
