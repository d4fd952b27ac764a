import Verif.Py.Base
/-
Generated by tools/mkpyconform.py: the source file of `Etsi.FullLinkControl` against the model of its classes.
-/

set_option autoImplicit false
set_option linter.unusedSimpArgs false
set_option maxHeartbeats 1000000

namespace Dmr.Py.ConformEtsi

theorem FullLinkControl.file : files[22]? = some Source.Etsi.FullLinkControl.file := rfl

theorem enum_FullLinkControl_Flcos : library.enums.find? (fun e => e.qualified == "Etsi.FullLinkControl.Flcos") = some Source.Etsi.FullLinkControl.Flcos := enum_at 22 _ FullLinkControl.file 0 Source.Etsi.FullLinkControl.Flcos rfl

@[py] theorem resolve_FullLinkControl_Flcos (v : Nat) : resolve library "Etsi.FullLinkControl.Flcos" (.pv (.int (v : Int))) =
    pure (.pv (EnumVal.toPy "Flcos" (resolveEnum Dmr.Etsi.FullLinkControl.Flcos v))) := run_resolve Source.Etsi.FullLinkControl.Flcos enum_FullLinkControl_Flcos (by decide) v

@[py] theorem member_FullLinkControl_Flcos_gps_info : member library "Etsi.FullLinkControl.Flcos" "gps_info" = pure (.pv (.enum "Flcos" 8)) := member_of enum_FullLinkControl_Flcos rfl

@[py] theorem same_FullLinkControl_Flcos_gps_info (on : EnumVal Dmr.Etsi.FullLinkControl.Flcos) :
    same (.pv (EnumVal.toPy "Flcos" on)) (.pv (.enum "Flcos" 8)) = decide (on = .known .gps_info) :=
  same_known _ _ Dmr.Etsi.FullLinkControl.Flcos.gps_info

@[py] theorem member_FullLinkControl_Flcos_group_voice : member library "Etsi.FullLinkControl.Flcos" "group_voice" = pure (.pv (.enum "Flcos" 0)) := member_of enum_FullLinkControl_Flcos rfl

@[py] theorem same_FullLinkControl_Flcos_group_voice (on : EnumVal Dmr.Etsi.FullLinkControl.Flcos) :
    same (.pv (EnumVal.toPy "Flcos" on)) (.pv (.enum "Flcos" 0)) = decide (on = .known .group_voice) :=
  same_known _ _ Dmr.Etsi.FullLinkControl.Flcos.group_voice

@[py] theorem member_FullLinkControl_Flcos_talker_alias_block1 : member library "Etsi.FullLinkControl.Flcos" "talker_alias_block1" = pure (.pv (.enum "Flcos" 5)) := member_of enum_FullLinkControl_Flcos rfl

@[py] theorem same_FullLinkControl_Flcos_talker_alias_block1 (on : EnumVal Dmr.Etsi.FullLinkControl.Flcos) :
    same (.pv (EnumVal.toPy "Flcos" on)) (.pv (.enum "Flcos" 5)) = decide (on = .known .talker_alias_block1) :=
  same_known _ _ Dmr.Etsi.FullLinkControl.Flcos.talker_alias_block1

@[py] theorem member_FullLinkControl_Flcos_talker_alias_block2 : member library "Etsi.FullLinkControl.Flcos" "talker_alias_block2" = pure (.pv (.enum "Flcos" 6)) := member_of enum_FullLinkControl_Flcos rfl

@[py] theorem same_FullLinkControl_Flcos_talker_alias_block2 (on : EnumVal Dmr.Etsi.FullLinkControl.Flcos) :
    same (.pv (EnumVal.toPy "Flcos" on)) (.pv (.enum "Flcos" 6)) = decide (on = .known .talker_alias_block2) :=
  same_known _ _ Dmr.Etsi.FullLinkControl.Flcos.talker_alias_block2

@[py] theorem member_FullLinkControl_Flcos_talker_alias_block3 : member library "Etsi.FullLinkControl.Flcos" "talker_alias_block3" = pure (.pv (.enum "Flcos" 7)) := member_of enum_FullLinkControl_Flcos rfl

@[py] theorem same_FullLinkControl_Flcos_talker_alias_block3 (on : EnumVal Dmr.Etsi.FullLinkControl.Flcos) :
    same (.pv (EnumVal.toPy "Flcos" on)) (.pv (.enum "Flcos" 7)) = decide (on = .known .talker_alias_block3) :=
  same_known _ _ Dmr.Etsi.FullLinkControl.Flcos.talker_alias_block3

@[py] theorem member_FullLinkControl_Flcos_talker_alias_header : member library "Etsi.FullLinkControl.Flcos" "talker_alias_header" = pure (.pv (.enum "Flcos" 4)) := member_of enum_FullLinkControl_Flcos rfl

@[py] theorem same_FullLinkControl_Flcos_talker_alias_header (on : EnumVal Dmr.Etsi.FullLinkControl.Flcos) :
    same (.pv (EnumVal.toPy "Flcos" on)) (.pv (.enum "Flcos" 4)) = decide (on = .known .talker_alias_header) :=
  same_known _ _ Dmr.Etsi.FullLinkControl.Flcos.talker_alias_header

@[py] theorem member_FullLinkControl_Flcos_unit_to_unit_voice : member library "Etsi.FullLinkControl.Flcos" "unit_to_unit_voice" = pure (.pv (.enum "Flcos" 3)) := member_of enum_FullLinkControl_Flcos rfl

@[py] theorem same_FullLinkControl_Flcos_unit_to_unit_voice (on : EnumVal Dmr.Etsi.FullLinkControl.Flcos) :
    same (.pv (EnumVal.toPy "Flcos" on)) (.pv (.enum "Flcos" 3)) = decide (on = .known .unit_to_unit_voice) :=
  same_known _ _ Dmr.Etsi.FullLinkControl.Flcos.unit_to_unit_voice

theorem enum_FullLinkControl_PositionErrors : library.enums.find? (fun e => e.qualified == "Etsi.FullLinkControl.PositionErrors") = some Source.Etsi.FullLinkControl.PositionErrors := enum_at 22 _ FullLinkControl.file 1 Source.Etsi.FullLinkControl.PositionErrors rfl

@[py] theorem resolve_FullLinkControl_PositionErrors (v : Nat) : resolve library "Etsi.FullLinkControl.PositionErrors" (.pv (.int (v : Int))) =
    pure (.pv (EnumVal.toPy "PositionErrors" (resolveEnum Dmr.Etsi.FullLinkControl.PositionErrors v))) := run_resolve Source.Etsi.FullLinkControl.PositionErrors enum_FullLinkControl_PositionErrors (by decide) v

theorem enum_FullLinkControl_TalkerDataFormats : library.enums.find? (fun e => e.qualified == "Etsi.FullLinkControl.TalkerDataFormats") = some Source.Etsi.FullLinkControl.TalkerDataFormats := enum_at 22 _ FullLinkControl.file 2 Source.Etsi.FullLinkControl.TalkerDataFormats rfl

@[py] theorem resolve_FullLinkControl_TalkerDataFormats (v : Nat) : resolve library "Etsi.FullLinkControl.TalkerDataFormats" (.pv (.int (v : Int))) =
    pure (.pv (EnumVal.toPy "TalkerDataFormats" (resolveEnum Dmr.Etsi.FullLinkControl.TalkerDataFormats v))) := run_resolve Source.Etsi.FullLinkControl.TalkerDataFormats enum_FullLinkControl_TalkerDataFormats (by decide) v

theorem enum_FullLinkControl_FeatureSetIds : library.enums.find? (fun e => e.qualified == "Etsi.FullLinkControl.FeatureSetIds") = some Source.Etsi.FullLinkControl.FeatureSetIds := enum_at 22 _ FullLinkControl.file 3 Source.Etsi.FullLinkControl.FeatureSetIds rfl

@[py] theorem resolve_FullLinkControl_FeatureSetIds (v : Nat) : resolve library "Etsi.FullLinkControl.FeatureSetIds" (.pv (.int (v : Int))) =
    pure (.pv (EnumVal.toPy "FeatureSetIds" (resolveEnum Dmr.Etsi.FullLinkControl.FeatureSetIds v))) := run_resolve Source.Etsi.FullLinkControl.FeatureSetIds enum_FullLinkControl_FeatureSetIds (by decide) v

theorem FullLinkControl_GpsInfoLcPdu_class : library.class "Etsi.FullLinkControl.GpsInfoLcPdu" = some Source.Etsi.FullLinkControl.GpsInfoLcPdu := class_at 22 _ FullLinkControl.file 0 Source.Etsi.FullLinkControl.GpsInfoLcPdu rfl

/-- okdmr/kaitai/etsi/full_link_control.py:104-117 against `Dmr.Etsi.FullLinkControl.GpsInfoLcPdu`. -/
@[py] theorem FullLinkControl_GpsInfoLcPdu_builds (n : Nat) (H : List Obj) (S : List Stream) (k : Nat) (hk : k < S.length) (s : Stream)
    (parent root : Val) : ((calls library (n + 3)).construct "Etsi.FullLinkControl.GpsInfoLcPdu" [.io k, parent, root]).run ⟨H, S.set k s⟩ =
      after Dmr.Etsi.FullLinkControl.GpsInfoLcPdu.read s (fun e s' => .raise e ⟨H, S.set k s'⟩)
        (built Dmr.Etsi.FullLinkControl.GpsInfoLcPdu.toPy k parent root H S) := by
  rw [construct_eq library _ "Etsi.FullLinkControl.GpsInfoLcPdu" _ _ FullLinkControl_GpsInfoLcPdu_class rfl rfl]
  py_run [onStream_set _ _ _ _ hk, hk, Dmr.Etsi.FullLinkControl.GpsInfoLcPdu.read, Dmr.Etsi.FullLinkControl.GpsInfoLcPdu.toPy]

@[py] theorem FullLinkControl_GpsInfoLcPdu_place (io parent root : Val) (b : Nat) (x : Dmr.Etsi.FullLinkControl.GpsInfoLcPdu) :
    place io parent root b x.toPy = (.obj b, placeObj io parent root b x.toPy) :=
  place_part _ _ _ _ _ _ (by decide)

theorem FullLinkControl_GroupVoiceChannelUser_class : library.class "Etsi.FullLinkControl.GroupVoiceChannelUser" = some Source.Etsi.FullLinkControl.GroupVoiceChannelUser := class_at 22 _ FullLinkControl.file 1 Source.Etsi.FullLinkControl.GroupVoiceChannelUser rfl

/-- okdmr/kaitai/etsi/full_link_control.py:119-129 against `Dmr.Etsi.FullLinkControl.GroupVoiceChannelUser`. -/
@[py] theorem FullLinkControl_GroupVoiceChannelUser_builds (n : Nat) (H : List Obj) (S : List Stream) (k : Nat) (hk : k < S.length) (s : Stream)
    (parent root : Val) : ((calls library (n + 3)).construct "Etsi.FullLinkControl.GroupVoiceChannelUser" [.io k, parent, root]).run ⟨H, S.set k s⟩ =
      after Dmr.Etsi.FullLinkControl.GroupVoiceChannelUser.read s (fun e s' => .raise e ⟨H, S.set k s'⟩)
        (built Dmr.Etsi.FullLinkControl.GroupVoiceChannelUser.toPy k parent root H S) := by
  rw [construct_eq library _ "Etsi.FullLinkControl.GroupVoiceChannelUser" _ _ FullLinkControl_GroupVoiceChannelUser_class rfl rfl]
  py_run [onStream_set _ _ _ _ hk, hk, Dmr.Etsi.FullLinkControl.GroupVoiceChannelUser.read, Dmr.Etsi.FullLinkControl.GroupVoiceChannelUser.toPy]

@[py] theorem FullLinkControl_GroupVoiceChannelUser_place (io parent root : Val) (b : Nat) (x : Dmr.Etsi.FullLinkControl.GroupVoiceChannelUser) :
    place io parent root b x.toPy = (.obj b, placeObj io parent root b x.toPy) :=
  place_part _ _ _ _ _ _ (by decide)

theorem FullLinkControl_UnitToUnitVoiceChannelUser_class : library.class "Etsi.FullLinkControl.UnitToUnitVoiceChannelUser" = some Source.Etsi.FullLinkControl.UnitToUnitVoiceChannelUser := class_at 22 _ FullLinkControl.file 2 Source.Etsi.FullLinkControl.UnitToUnitVoiceChannelUser rfl

/-- okdmr/kaitai/etsi/full_link_control.py:131-141 against `Dmr.Etsi.FullLinkControl.UnitToUnitVoiceChannelUser`. -/
@[py] theorem FullLinkControl_UnitToUnitVoiceChannelUser_builds (n : Nat) (H : List Obj) (S : List Stream) (k : Nat) (hk : k < S.length) (s : Stream)
    (parent root : Val) : ((calls library (n + 3)).construct "Etsi.FullLinkControl.UnitToUnitVoiceChannelUser" [.io k, parent, root]).run ⟨H, S.set k s⟩ =
      after Dmr.Etsi.FullLinkControl.UnitToUnitVoiceChannelUser.read s (fun e s' => .raise e ⟨H, S.set k s'⟩)
        (built Dmr.Etsi.FullLinkControl.UnitToUnitVoiceChannelUser.toPy k parent root H S) := by
  rw [construct_eq library _ "Etsi.FullLinkControl.UnitToUnitVoiceChannelUser" _ _ FullLinkControl_UnitToUnitVoiceChannelUser_class rfl rfl]
  py_run [onStream_set _ _ _ _ hk, hk, Dmr.Etsi.FullLinkControl.UnitToUnitVoiceChannelUser.read, Dmr.Etsi.FullLinkControl.UnitToUnitVoiceChannelUser.toPy]

@[py] theorem FullLinkControl_UnitToUnitVoiceChannelUser_place (io parent root : Val) (b : Nat) (x : Dmr.Etsi.FullLinkControl.UnitToUnitVoiceChannelUser) :
    place io parent root b x.toPy = (.obj b, placeObj io parent root b x.toPy) :=
  place_part _ _ _ _ _ _ (by decide)

theorem FullLinkControl_TalkerAliasHeader_class : library.class "Etsi.FullLinkControl.TalkerAliasHeader" = some Source.Etsi.FullLinkControl.TalkerAliasHeader := class_at 22 _ FullLinkControl.file 3 Source.Etsi.FullLinkControl.TalkerAliasHeader rfl

/-- okdmr/kaitai/etsi/full_link_control.py:143-155 against `Dmr.Etsi.FullLinkControl.TalkerAliasHeader`. -/
@[py] theorem FullLinkControl_TalkerAliasHeader_builds (n : Nat) (H : List Obj) (S : List Stream) (k : Nat) (hk : k < S.length) (s : Stream)
    (parent root : Val) : ((calls library (n + 3)).construct "Etsi.FullLinkControl.TalkerAliasHeader" [.io k, parent, root]).run ⟨H, S.set k s⟩ =
      after Dmr.Etsi.FullLinkControl.TalkerAliasHeader.read s (fun e s' => .raise e ⟨H, S.set k s'⟩)
        (built Dmr.Etsi.FullLinkControl.TalkerAliasHeader.toPy k parent root H S) := by
  rw [construct_eq library _ "Etsi.FullLinkControl.TalkerAliasHeader" _ _ FullLinkControl_TalkerAliasHeader_class rfl rfl]
  py_run [onStream_set _ _ _ _ hk, hk, Dmr.Etsi.FullLinkControl.TalkerAliasHeader.read, Dmr.Etsi.FullLinkControl.TalkerAliasHeader.toPy]

@[py] theorem FullLinkControl_TalkerAliasHeader_place (io parent root : Val) (b : Nat) (x : Dmr.Etsi.FullLinkControl.TalkerAliasHeader) :
    place io parent root b x.toPy = (.obj b, placeObj io parent root b x.toPy) :=
  place_part _ _ _ _ _ _ (by decide)

theorem FullLinkControl_TalkerAliasContinuation_class : library.class "Etsi.FullLinkControl.TalkerAliasContinuation" = some Source.Etsi.FullLinkControl.TalkerAliasContinuation := class_at 22 _ FullLinkControl.file 4 Source.Etsi.FullLinkControl.TalkerAliasContinuation rfl

/-- okdmr/kaitai/etsi/full_link_control.py:157-165 against `Dmr.Etsi.FullLinkControl.TalkerAliasContinuation`. -/
@[py] theorem FullLinkControl_TalkerAliasContinuation_builds (n : Nat) (H : List Obj) (S : List Stream) (k : Nat) (hk : k < S.length) (s : Stream)
    (parent root : Val) : ((calls library (n + 3)).construct "Etsi.FullLinkControl.TalkerAliasContinuation" [.io k, parent, root]).run ⟨H, S.set k s⟩ =
      after Dmr.Etsi.FullLinkControl.TalkerAliasContinuation.read s (fun e s' => .raise e ⟨H, S.set k s'⟩)
        (built Dmr.Etsi.FullLinkControl.TalkerAliasContinuation.toPy k parent root H S) := by
  rw [construct_eq library _ "Etsi.FullLinkControl.TalkerAliasContinuation" _ _ FullLinkControl_TalkerAliasContinuation_class rfl rfl]
  py_run [onStream_set _ _ _ _ hk, hk, Dmr.Etsi.FullLinkControl.TalkerAliasContinuation.read, Dmr.Etsi.FullLinkControl.TalkerAliasContinuation.toPy]

@[py] theorem FullLinkControl_TalkerAliasContinuation_place (io parent root : Val) (b : Nat) (x : Dmr.Etsi.FullLinkControl.TalkerAliasContinuation) :
    place io parent root b x.toPy = (.obj b, placeObj io parent root b x.toPy) :=
  place_part _ _ _ _ _ _ (by decide)

theorem FullLinkControl_class : library.class "Etsi.FullLinkControl" = some Source.Etsi.FullLinkControl := class_at 22 _ FullLinkControl.file 5 Source.Etsi.FullLinkControl rfl

/-- okdmr/kaitai/etsi/full_link_control.py:15-165 against `Dmr.Etsi.FullLinkControl`. -/
@[py] theorem FullLinkControl_builds (n : Nat) (H : List Obj) (S : List Stream) (k : Nat) (hk : k < S.length) (s : Stream)
    (parent root : Val) : ((calls library (n + 5)).construct "Etsi.FullLinkControl" [.io k, parent, root]).run ⟨H, S.set k s⟩ =
      after Dmr.Etsi.FullLinkControl.read s (fun e s' => .raise e ⟨H, S.set k s'⟩)
        (built Dmr.Etsi.FullLinkControl.toPy k parent root H S) := by
  rw [construct_eq library _ "Etsi.FullLinkControl" _ _ FullLinkControl_class rfl rfl]
  py_run [onStream_set _ _ _ _ hk, hk, Dmr.Etsi.FullLinkControl.read, Dmr.Etsi.FullLinkControl.toPy, Dmr.Etsi.FullLinkControl.readSpecificData, Dmr.Etsi.FullLinkControl.SpecificDataUnion.toPy]

@[py] theorem FullLinkControl_short (n k : Nat) : (calls library (n + 5)).construct "Etsi.FullLinkControl" [.io k] =
    (calls library (n + 5)).construct "Etsi.FullLinkControl" [.io k, .pv .none, .pv .none] := construct_short _ _ _ _ FullLinkControl_class rfl _

@[py] theorem FullLinkControl_place (io parent root : Val) (b : Nat) (x : Dmr.Etsi.FullLinkControl) :
    place io parent root b x.toPy = (.obj b, placeObj io (.pv .none) (.obj b) b x.toPy) :=
  place_file _ _ _ _ _ _ (by decide)

end Dmr.Py.ConformEtsi
