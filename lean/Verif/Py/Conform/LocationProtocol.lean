import Verif.Py.Base
import Verif.Py.Conform.Datetimestring
import Verif.Py.Conform.Gpsdata
import Verif.Py.Conform.Intervalstring
import Verif.Py.Conform.RadioIp
/-
Generated by tools/mkpyconform.py: the source file of `Hytera.LocationProtocol` against the model of its classes.
-/

set_option autoImplicit false
set_option linter.unusedSimpArgs false
set_option maxHeartbeats 1000000

namespace Dmr.Py.ConformHytera

theorem LocationProtocol.file : files[10]? = some Source.Hytera.LocationProtocol.file := rfl

theorem enum_LocationProtocol_CmdTypes : library.enums.find? (fun e => e.qualified == "Hytera.LocationProtocol.CmdTypes") = some Source.Hytera.LocationProtocol.CmdTypes := enum_at 10 _ LocationProtocol.file 0 Source.Hytera.LocationProtocol.CmdTypes rfl

@[py] theorem resolve_LocationProtocol_CmdTypes (v : Nat) : resolve library "Hytera.LocationProtocol.CmdTypes" (.pv (.int (v : Int))) =
    pure (.pv (EnumVal.toPy "CmdTypes" (resolveEnum Dmr.Hytera.LocationProtocol.CmdTypes v))) := run_resolve Source.Hytera.LocationProtocol.CmdTypes enum_LocationProtocol_CmdTypes (by decide) v

@[py] theorem member_LocationProtocol_CmdTypes_start_request : member library "Hytera.LocationProtocol.CmdTypes" "start_request" = pure (.pv (.enum "CmdTypes" 1)) := member_of enum_LocationProtocol_CmdTypes rfl

@[py] theorem same_LocationProtocol_CmdTypes_start_request (on : EnumVal Dmr.Hytera.LocationProtocol.CmdTypes) :
    same (.pv (EnumVal.toPy "CmdTypes" on)) (.pv (.enum "CmdTypes" 1)) = decide (on = .known .start_request) :=
  same_known _ _ Dmr.Hytera.LocationProtocol.CmdTypes.start_request

theorem enum_LocationProtocol_LpSpecificTypes : library.enums.find? (fun e => e.qualified == "Hytera.LocationProtocol.LpSpecificTypes") = some Source.Hytera.LocationProtocol.LpSpecificTypes := enum_at 10 _ LocationProtocol.file 1 Source.Hytera.LocationProtocol.LpSpecificTypes rfl

@[py] theorem resolve_LocationProtocol_LpSpecificTypes (v : Nat) : resolve library "Hytera.LocationProtocol.LpSpecificTypes" (.pv (.int (v : Int))) =
    pure (.pv (EnumVal.toPy "LpSpecificTypes" (resolveEnum Dmr.Hytera.LocationProtocol.LpSpecificTypes v))) := run_resolve Source.Hytera.LocationProtocol.LpSpecificTypes enum_LocationProtocol_LpSpecificTypes (by decide) v

@[py] theorem member_LocationProtocol_LpSpecificTypes_condition_quick_gps_answer : member library "Hytera.LocationProtocol.LpSpecificTypes" "condition_quick_gps_answer" = pure (.pv (.enum "LpSpecificTypes" 53266)) := member_of enum_LocationProtocol_LpSpecificTypes rfl

@[py] theorem same_LocationProtocol_LpSpecificTypes_condition_quick_gps_answer (on : EnumVal Dmr.Hytera.LocationProtocol.LpSpecificTypes) :
    same (.pv (EnumVal.toPy "LpSpecificTypes" on)) (.pv (.enum "LpSpecificTypes" 53266)) = decide (on = .known .condition_quick_gps_answer) :=
  same_known _ _ Dmr.Hytera.LocationProtocol.LpSpecificTypes.condition_quick_gps_answer

@[py] theorem member_LocationProtocol_LpSpecificTypes_condition_quick_gps_request : member library "Hytera.LocationProtocol.LpSpecificTypes" "condition_quick_gps_request" = pure (.pv (.enum "LpSpecificTypes" 53265)) := member_of enum_LocationProtocol_LpSpecificTypes rfl

@[py] theorem same_LocationProtocol_LpSpecificTypes_condition_quick_gps_request (on : EnumVal Dmr.Hytera.LocationProtocol.LpSpecificTypes) :
    same (.pv (EnumVal.toPy "LpSpecificTypes" on)) (.pv (.enum "LpSpecificTypes" 53265)) = decide (on = .known .condition_quick_gps_request) :=
  same_known _ _ Dmr.Hytera.LocationProtocol.LpSpecificTypes.condition_quick_gps_request

@[py] theorem member_LocationProtocol_LpSpecificTypes_condition_report : member library "Hytera.LocationProtocol.LpSpecificTypes" "condition_report" = pure (.pv (.enum "LpSpecificTypes" 53251)) := member_of enum_LocationProtocol_LpSpecificTypes rfl

@[py] theorem same_LocationProtocol_LpSpecificTypes_condition_report (on : EnumVal Dmr.Hytera.LocationProtocol.LpSpecificTypes) :
    same (.pv (EnumVal.toPy "LpSpecificTypes" on)) (.pv (.enum "LpSpecificTypes" 53251)) = decide (on = .known .condition_report) :=
  same_known _ _ Dmr.Hytera.LocationProtocol.LpSpecificTypes.condition_report

@[py] theorem member_LocationProtocol_LpSpecificTypes_condition_report_answer : member library "Hytera.LocationProtocol.LpSpecificTypes" "condition_report_answer" = pure (.pv (.enum "LpSpecificTypes" 53250)) := member_of enum_LocationProtocol_LpSpecificTypes rfl

@[py] theorem same_LocationProtocol_LpSpecificTypes_condition_report_answer (on : EnumVal Dmr.Hytera.LocationProtocol.LpSpecificTypes) :
    same (.pv (EnumVal.toPy "LpSpecificTypes" on)) (.pv (.enum "LpSpecificTypes" 53250)) = decide (on = .known .condition_report_answer) :=
  same_known _ _ Dmr.Hytera.LocationProtocol.LpSpecificTypes.condition_report_answer

@[py] theorem member_LocationProtocol_LpSpecificTypes_condition_report_request : member library "Hytera.LocationProtocol.LpSpecificTypes" "condition_report_request" = pure (.pv (.enum "LpSpecificTypes" 53249)) := member_of enum_LocationProtocol_LpSpecificTypes rfl

@[py] theorem same_LocationProtocol_LpSpecificTypes_condition_report_request (on : EnumVal Dmr.Hytera.LocationProtocol.LpSpecificTypes) :
    same (.pv (EnumVal.toPy "LpSpecificTypes" on)) (.pv (.enum "LpSpecificTypes" 53249)) = decide (on = .known .condition_report_request) :=
  same_known _ _ Dmr.Hytera.LocationProtocol.LpSpecificTypes.condition_report_request

@[py] theorem member_LocationProtocol_LpSpecificTypes_condition_report_with_rssi : member library "Hytera.LocationProtocol.LpSpecificTypes" "condition_report_with_rssi" = pure (.pv (.enum "LpSpecificTypes" 53252)) := member_of enum_LocationProtocol_LpSpecificTypes rfl

@[py] theorem same_LocationProtocol_LpSpecificTypes_condition_report_with_rssi (on : EnumVal Dmr.Hytera.LocationProtocol.LpSpecificTypes) :
    same (.pv (EnumVal.toPy "LpSpecificTypes" on)) (.pv (.enum "LpSpecificTypes" 53252)) = decide (on = .known .condition_report_with_rssi) :=
  same_known _ _ Dmr.Hytera.LocationProtocol.LpSpecificTypes.condition_report_with_rssi

@[py] theorem member_LocationProtocol_LpSpecificTypes_emergency_report : member library "Hytera.LocationProtocol.LpSpecificTypes" "emergency_report" = pure (.pv (.enum "LpSpecificTypes" 45059)) := member_of enum_LocationProtocol_LpSpecificTypes rfl

@[py] theorem same_LocationProtocol_LpSpecificTypes_emergency_report (on : EnumVal Dmr.Hytera.LocationProtocol.LpSpecificTypes) :
    same (.pv (EnumVal.toPy "LpSpecificTypes" on)) (.pv (.enum "LpSpecificTypes" 45059)) = decide (on = .known .emergency_report) :=
  same_known _ _ Dmr.Hytera.LocationProtocol.LpSpecificTypes.emergency_report

@[py] theorem member_LocationProtocol_LpSpecificTypes_emergency_report_stop_answer : member library "Hytera.LocationProtocol.LpSpecificTypes" "emergency_report_stop_answer" = pure (.pv (.enum "LpSpecificTypes" 45058)) := member_of enum_LocationProtocol_LpSpecificTypes rfl

@[py] theorem same_LocationProtocol_LpSpecificTypes_emergency_report_stop_answer (on : EnumVal Dmr.Hytera.LocationProtocol.LpSpecificTypes) :
    same (.pv (EnumVal.toPy "LpSpecificTypes" on)) (.pv (.enum "LpSpecificTypes" 45058)) = decide (on = .known .emergency_report_stop_answer) :=
  same_known _ _ Dmr.Hytera.LocationProtocol.LpSpecificTypes.emergency_report_stop_answer

@[py] theorem member_LocationProtocol_LpSpecificTypes_emergency_report_stop_request : member library "Hytera.LocationProtocol.LpSpecificTypes" "emergency_report_stop_request" = pure (.pv (.enum "LpSpecificTypes" 45057)) := member_of enum_LocationProtocol_LpSpecificTypes rfl

@[py] theorem same_LocationProtocol_LpSpecificTypes_emergency_report_stop_request (on : EnumVal Dmr.Hytera.LocationProtocol.LpSpecificTypes) :
    same (.pv (EnumVal.toPy "LpSpecificTypes" on)) (.pv (.enum "LpSpecificTypes" 45057)) = decide (on = .known .emergency_report_stop_request) :=
  same_known _ _ Dmr.Hytera.LocationProtocol.LpSpecificTypes.emergency_report_stop_request

@[py] theorem member_LocationProtocol_LpSpecificTypes_standard_answer : member library "Hytera.LocationProtocol.LpSpecificTypes" "standard_answer" = pure (.pv (.enum "LpSpecificTypes" 40962)) := member_of enum_LocationProtocol_LpSpecificTypes rfl

@[py] theorem same_LocationProtocol_LpSpecificTypes_standard_answer (on : EnumVal Dmr.Hytera.LocationProtocol.LpSpecificTypes) :
    same (.pv (EnumVal.toPy "LpSpecificTypes" on)) (.pv (.enum "LpSpecificTypes" 40962)) = decide (on = .known .standard_answer) :=
  same_known _ _ Dmr.Hytera.LocationProtocol.LpSpecificTypes.standard_answer

@[py] theorem member_LocationProtocol_LpSpecificTypes_standard_answer_with_rssi : member library "Hytera.LocationProtocol.LpSpecificTypes" "standard_answer_with_rssi" = pure (.pv (.enum "LpSpecificTypes" 40963)) := member_of enum_LocationProtocol_LpSpecificTypes rfl

@[py] theorem same_LocationProtocol_LpSpecificTypes_standard_answer_with_rssi (on : EnumVal Dmr.Hytera.LocationProtocol.LpSpecificTypes) :
    same (.pv (EnumVal.toPy "LpSpecificTypes" on)) (.pv (.enum "LpSpecificTypes" 40963)) = decide (on = .known .standard_answer_with_rssi) :=
  same_known _ _ Dmr.Hytera.LocationProtocol.LpSpecificTypes.standard_answer_with_rssi

@[py] theorem member_LocationProtocol_LpSpecificTypes_standard_request : member library "Hytera.LocationProtocol.LpSpecificTypes" "standard_request" = pure (.pv (.enum "LpSpecificTypes" 40961)) := member_of enum_LocationProtocol_LpSpecificTypes rfl

@[py] theorem same_LocationProtocol_LpSpecificTypes_standard_request (on : EnumVal Dmr.Hytera.LocationProtocol.LpSpecificTypes) :
    same (.pv (EnumVal.toPy "LpSpecificTypes" on)) (.pv (.enum "LpSpecificTypes" 40961)) = decide (on = .known .standard_request) :=
  same_known _ _ Dmr.Hytera.LocationProtocol.LpSpecificTypes.standard_request

@[py] theorem member_LocationProtocol_LpSpecificTypes_triggered_report : member library "Hytera.LocationProtocol.LpSpecificTypes" "triggered_report" = pure (.pv (.enum "LpSpecificTypes" 49155)) := member_of enum_LocationProtocol_LpSpecificTypes rfl

@[py] theorem same_LocationProtocol_LpSpecificTypes_triggered_report (on : EnumVal Dmr.Hytera.LocationProtocol.LpSpecificTypes) :
    same (.pv (EnumVal.toPy "LpSpecificTypes" on)) (.pv (.enum "LpSpecificTypes" 49155)) = decide (on = .known .triggered_report) :=
  same_known _ _ Dmr.Hytera.LocationProtocol.LpSpecificTypes.triggered_report

@[py] theorem member_LocationProtocol_LpSpecificTypes_triggered_report_answer : member library "Hytera.LocationProtocol.LpSpecificTypes" "triggered_report_answer" = pure (.pv (.enum "LpSpecificTypes" 49154)) := member_of enum_LocationProtocol_LpSpecificTypes rfl

@[py] theorem same_LocationProtocol_LpSpecificTypes_triggered_report_answer (on : EnumVal Dmr.Hytera.LocationProtocol.LpSpecificTypes) :
    same (.pv (EnumVal.toPy "LpSpecificTypes" on)) (.pv (.enum "LpSpecificTypes" 49154)) = decide (on = .known .triggered_report_answer) :=
  same_known _ _ Dmr.Hytera.LocationProtocol.LpSpecificTypes.triggered_report_answer

@[py] theorem member_LocationProtocol_LpSpecificTypes_triggered_report_request : member library "Hytera.LocationProtocol.LpSpecificTypes" "triggered_report_request" = pure (.pv (.enum "LpSpecificTypes" 49153)) := member_of enum_LocationProtocol_LpSpecificTypes rfl

@[py] theorem same_LocationProtocol_LpSpecificTypes_triggered_report_request (on : EnumVal Dmr.Hytera.LocationProtocol.LpSpecificTypes) :
    same (.pv (EnumVal.toPy "LpSpecificTypes" on)) (.pv (.enum "LpSpecificTypes" 49153)) = decide (on = .known .triggered_report_request) :=
  same_known _ _ Dmr.Hytera.LocationProtocol.LpSpecificTypes.triggered_report_request

@[py] theorem member_LocationProtocol_LpSpecificTypes_triggered_report_stop_answer : member library "Hytera.LocationProtocol.LpSpecificTypes" "triggered_report_stop_answer" = pure (.pv (.enum "LpSpecificTypes" 49157)) := member_of enum_LocationProtocol_LpSpecificTypes rfl

@[py] theorem same_LocationProtocol_LpSpecificTypes_triggered_report_stop_answer (on : EnumVal Dmr.Hytera.LocationProtocol.LpSpecificTypes) :
    same (.pv (EnumVal.toPy "LpSpecificTypes" on)) (.pv (.enum "LpSpecificTypes" 49157)) = decide (on = .known .triggered_report_stop_answer) :=
  same_known _ _ Dmr.Hytera.LocationProtocol.LpSpecificTypes.triggered_report_stop_answer

@[py] theorem member_LocationProtocol_LpSpecificTypes_triggered_report_stop_request : member library "Hytera.LocationProtocol.LpSpecificTypes" "triggered_report_stop_request" = pure (.pv (.enum "LpSpecificTypes" 49156)) := member_of enum_LocationProtocol_LpSpecificTypes rfl

@[py] theorem same_LocationProtocol_LpSpecificTypes_triggered_report_stop_request (on : EnumVal Dmr.Hytera.LocationProtocol.LpSpecificTypes) :
    same (.pv (EnumVal.toPy "LpSpecificTypes" on)) (.pv (.enum "LpSpecificTypes" 49156)) = decide (on = .known .triggered_report_stop_request) :=
  same_known _ _ Dmr.Hytera.LocationProtocol.LpSpecificTypes.triggered_report_stop_request

theorem enum_LocationProtocol_LpGeneralTypes : library.enums.find? (fun e => e.qualified == "Hytera.LocationProtocol.LpGeneralTypes") = some Source.Hytera.LocationProtocol.LpGeneralTypes := enum_at 10 _ LocationProtocol.file 2 Source.Hytera.LocationProtocol.LpGeneralTypes rfl

@[py] theorem resolve_LocationProtocol_LpGeneralTypes (v : Nat) : resolve library "Hytera.LocationProtocol.LpGeneralTypes" (.pv (.int (v : Int))) =
    pure (.pv (EnumVal.toPy "LpGeneralTypes" (resolveEnum Dmr.Hytera.LocationProtocol.LpGeneralTypes v))) := run_resolve Source.Hytera.LocationProtocol.LpGeneralTypes enum_LocationProtocol_LpGeneralTypes (by decide) v

theorem enum_LocationProtocol_TriggerTypes : library.enums.find? (fun e => e.qualified == "Hytera.LocationProtocol.TriggerTypes") = some Source.Hytera.LocationProtocol.TriggerTypes := enum_at 10 _ LocationProtocol.file 3 Source.Hytera.LocationProtocol.TriggerTypes rfl

@[py] theorem resolve_LocationProtocol_TriggerTypes (v : Nat) : resolve library "Hytera.LocationProtocol.TriggerTypes" (.pv (.int (v : Int))) =
    pure (.pv (EnumVal.toPy "TriggerTypes" (resolveEnum Dmr.Hytera.LocationProtocol.TriggerTypes v))) := run_resolve Source.Hytera.LocationProtocol.TriggerTypes enum_LocationProtocol_TriggerTypes (by decide) v

theorem enum_LocationProtocol_ResultCodes : library.enums.find? (fun e => e.qualified == "Hytera.LocationProtocol.ResultCodes") = some Source.Hytera.LocationProtocol.ResultCodes := enum_at 10 _ LocationProtocol.file 4 Source.Hytera.LocationProtocol.ResultCodes rfl

@[py] theorem resolve_LocationProtocol_ResultCodes (v : Nat) : resolve library "Hytera.LocationProtocol.ResultCodes" (.pv (.int (v : Int))) =
    pure (.pv (EnumVal.toPy "ResultCodes" (resolveEnum Dmr.Hytera.LocationProtocol.ResultCodes v))) := run_resolve Source.Hytera.LocationProtocol.ResultCodes enum_LocationProtocol_ResultCodes (by decide) v

theorem LocationProtocol_TriggeredReportStopAnswer_class : library.class "Hytera.LocationProtocol.TriggeredReportStopAnswer" = some Source.Hytera.LocationProtocol.TriggeredReportStopAnswer := class_at 10 _ LocationProtocol.file 0 Source.Hytera.LocationProtocol.TriggeredReportStopAnswer rfl

/-- okdmr/kaitai/hytera/location_protocol.py:136-148 against `Dmr.Hytera.LocationProtocol.TriggeredReportStopAnswer`. -/
@[py] theorem LocationProtocol_TriggeredReportStopAnswer_builds (n : Nat) (H : List Obj) (S : List Stream) (k : Nat) (hk : k < S.length) (s : Stream)
    (parent root : Val) : ((calls library (n + 5)).construct "Hytera.LocationProtocol.TriggeredReportStopAnswer" [.io k, parent, root]).run ⟨H, S.set k s⟩ =
      after Dmr.Hytera.LocationProtocol.TriggeredReportStopAnswer.read s (fun e s' => .raise e ⟨H, S.set k s'⟩)
        (built Dmr.Hytera.LocationProtocol.TriggeredReportStopAnswer.toPy k parent root H S) := by
  rw [construct_eq library _ "Hytera.LocationProtocol.TriggeredReportStopAnswer" _ _ LocationProtocol_TriggeredReportStopAnswer_class rfl rfl]
  py_run [onStream_set _ _ _ _ hk, hk, Dmr.Hytera.LocationProtocol.TriggeredReportStopAnswer.read, Dmr.Hytera.LocationProtocol.TriggeredReportStopAnswer.toPy]

@[py] theorem LocationProtocol_TriggeredReportStopAnswer_place (io parent root : Val) (b : Nat) (x : Dmr.Hytera.LocationProtocol.TriggeredReportStopAnswer) :
    place io parent root b x.toPy = (.obj b, placeObj io parent root b x.toPy) :=
  place_part _ _ _ _ _ _ (by decide)

theorem LocationProtocol_ConditionReportRequest_class : library.class "Hytera.LocationProtocol.ConditionReportRequest" = some Source.Hytera.LocationProtocol.ConditionReportRequest := class_at 10 _ LocationProtocol.file 1 Source.Hytera.LocationProtocol.ConditionReportRequest rfl

/-- okdmr/kaitai/hytera/location_protocol.py:150-165 against `Dmr.Hytera.LocationProtocol.ConditionReportRequest`. -/
@[py] theorem LocationProtocol_ConditionReportRequest_builds (n : Nat) (H : List Obj) (S : List Stream) (k : Nat) (hk : k < S.length) (s : Stream)
    (parent root : Val) : ((calls library (n + 5)).construct "Hytera.LocationProtocol.ConditionReportRequest" [.io k, parent, root]).run ⟨H, S.set k s⟩ =
      after Dmr.Hytera.LocationProtocol.ConditionReportRequest.read s (fun e s' => .raise e ⟨H, S.set k s'⟩)
        (built Dmr.Hytera.LocationProtocol.ConditionReportRequest.toPy k parent root H S) := by
  rw [construct_eq library _ "Hytera.LocationProtocol.ConditionReportRequest" _ _ LocationProtocol_ConditionReportRequest_class rfl rfl]
  py_run [onStream_set _ _ _ _ hk, hk, Dmr.Hytera.LocationProtocol.ConditionReportRequest.read, Dmr.Hytera.LocationProtocol.ConditionReportRequest.toPy]

@[py] theorem LocationProtocol_ConditionReportRequest_place (io parent root : Val) (b : Nat) (x : Dmr.Hytera.LocationProtocol.ConditionReportRequest) :
    place io parent root b x.toPy = (.obj b, placeObj io parent root b x.toPy) :=
  place_part _ _ _ _ _ _ (by decide)

theorem LocationProtocol_QuickGpsPayload_class : library.class "Hytera.LocationProtocol.QuickGpsPayload" = some Source.Hytera.LocationProtocol.QuickGpsPayload := class_at 10 _ LocationProtocol.file 7 Source.Hytera.LocationProtocol.QuickGpsPayload rfl

/-- okdmr/kaitai/hytera/location_protocol.py:239-252 against `Dmr.Hytera.LocationProtocol.QuickGpsPayload`. -/
@[py] theorem LocationProtocol_QuickGpsPayload_builds (n : Nat) (H : List Obj) (S : List Stream) (k : Nat) (hk : k < S.length) (s : Stream)
    (parent root : Val) : ((calls library (n + 5)).construct "Hytera.LocationProtocol.QuickGpsPayload" [.io k, parent, root]).run ⟨H, S.set k s⟩ =
      after Dmr.Hytera.LocationProtocol.QuickGpsPayload.read s (fun e s' => .raise e ⟨H, S.set k s'⟩)
        (built Dmr.Hytera.LocationProtocol.QuickGpsPayload.toPy k parent root H S) := by
  rw [construct_eq library _ "Hytera.LocationProtocol.QuickGpsPayload" _ _ LocationProtocol_QuickGpsPayload_class rfl rfl]
  py_run [onStream_set _ _ _ _ hk, hk, Dmr.Hytera.LocationProtocol.QuickGpsPayload.read, Dmr.Hytera.LocationProtocol.QuickGpsPayload.toPy]

@[py] theorem LocationProtocol_QuickGpsPayload_place (io parent root : Val) (b : Nat) (x : Dmr.Hytera.LocationProtocol.QuickGpsPayload) :
    place io parent root b x.toPy = (.obj b, placeObj io parent root b x.toPy) :=
  place_part _ _ _ _ _ _ (by decide)

theorem LocationProtocol_ConditionQuickGpsRequest_class : library.class "Hytera.LocationProtocol.ConditionQuickGpsRequest" = some Source.Hytera.LocationProtocol.ConditionQuickGpsRequest := class_at 10 _ LocationProtocol.file 2 Source.Hytera.LocationProtocol.ConditionQuickGpsRequest rfl

/-- okdmr/kaitai/hytera/location_protocol.py:167-183 against `Dmr.Hytera.LocationProtocol.ConditionQuickGpsRequest`. -/
@[py] theorem LocationProtocol_ConditionQuickGpsRequest_builds (n : Nat) (H : List Obj) (S : List Stream) (k : Nat) (hk : k < S.length) (s : Stream)
    (parent root : Val) : ((calls library (n + 7)).construct "Hytera.LocationProtocol.ConditionQuickGpsRequest" [.io k, parent, root]).run ⟨H, S.set k s⟩ =
      after Dmr.Hytera.LocationProtocol.ConditionQuickGpsRequest.read s (fun e s' => .raise e ⟨H, S.set k s'⟩)
        (built Dmr.Hytera.LocationProtocol.ConditionQuickGpsRequest.toPy k parent root H S) := by
  rw [construct_eq library _ "Hytera.LocationProtocol.ConditionQuickGpsRequest" _ _ LocationProtocol_ConditionQuickGpsRequest_class rfl rfl]
  py_run [onStream_set _ _ _ _ hk, hk, Dmr.Hytera.LocationProtocol.ConditionQuickGpsRequest.read, Dmr.Hytera.LocationProtocol.ConditionQuickGpsRequest.toPy]

@[py] theorem LocationProtocol_ConditionQuickGpsRequest_place (io parent root : Val) (b : Nat) (x : Dmr.Hytera.LocationProtocol.ConditionQuickGpsRequest) :
    place io parent root b x.toPy = (.obj b, placeObj io parent root b x.toPy) :=
  place_part _ _ _ _ _ _ (by decide)

theorem LocationProtocol_ConditionReport_class : library.class "Hytera.LocationProtocol.ConditionReport" = some Source.Hytera.LocationProtocol.ConditionReport := class_at 10 _ LocationProtocol.file 3 Source.Hytera.LocationProtocol.ConditionReport rfl

/-- okdmr/kaitai/hytera/location_protocol.py:185-195 against `Dmr.Hytera.LocationProtocol.ConditionReport`. -/
@[py] theorem LocationProtocol_ConditionReport_builds (n : Nat) (H : List Obj) (S : List Stream) (k : Nat) (hk : k < S.length) (s : Stream)
    (parent root : Val) : ((calls library (n + 5)).construct "Hytera.LocationProtocol.ConditionReport" [.io k, parent, root]).run ⟨H, S.set k s⟩ =
      after Dmr.Hytera.LocationProtocol.ConditionReport.read s (fun e s' => .raise e ⟨H, S.set k s'⟩)
        (built Dmr.Hytera.LocationProtocol.ConditionReport.toPy k parent root H S) := by
  rw [construct_eq library _ "Hytera.LocationProtocol.ConditionReport" _ _ LocationProtocol_ConditionReport_class rfl rfl]
  py_run [onStream_set _ _ _ _ hk, hk, Dmr.Hytera.LocationProtocol.ConditionReport.read, Dmr.Hytera.LocationProtocol.ConditionReport.toPy]

@[py] theorem LocationProtocol_ConditionReport_place (io parent root : Val) (b : Nat) (x : Dmr.Hytera.LocationProtocol.ConditionReport) :
    place io parent root b x.toPy = (.obj b, placeObj io parent root b x.toPy) :=
  place_part _ _ _ _ _ _ (by decide)

theorem LocationProtocol_EmergencyReport_class : library.class "Hytera.LocationProtocol.EmergencyReport" = some Source.Hytera.LocationProtocol.EmergencyReport := class_at 10 _ LocationProtocol.file 4 Source.Hytera.LocationProtocol.EmergencyReport rfl

/-- okdmr/kaitai/hytera/location_protocol.py:197-207 against `Dmr.Hytera.LocationProtocol.EmergencyReport`. -/
@[py] theorem LocationProtocol_EmergencyReport_builds (n : Nat) (H : List Obj) (S : List Stream) (k : Nat) (hk : k < S.length) (s : Stream)
    (parent root : Val) : ((calls library (n + 5)).construct "Hytera.LocationProtocol.EmergencyReport" [.io k, parent, root]).run ⟨H, S.set k s⟩ =
      after Dmr.Hytera.LocationProtocol.EmergencyReport.read s (fun e s' => .raise e ⟨H, S.set k s'⟩)
        (built Dmr.Hytera.LocationProtocol.EmergencyReport.toPy k parent root H S) := by
  rw [construct_eq library _ "Hytera.LocationProtocol.EmergencyReport" _ _ LocationProtocol_EmergencyReport_class rfl rfl]
  py_run [onStream_set _ _ _ _ hk, hk, Dmr.Hytera.LocationProtocol.EmergencyReport.read, Dmr.Hytera.LocationProtocol.EmergencyReport.toPy]

@[py] theorem LocationProtocol_EmergencyReport_place (io parent root : Val) (b : Nat) (x : Dmr.Hytera.LocationProtocol.EmergencyReport) :
    place io parent root b x.toPy = (.obj b, placeObj io parent root b x.toPy) :=
  place_part _ _ _ _ _ _ (by decide)

theorem LocationProtocol_TriggeredReportAnswer_class : library.class "Hytera.LocationProtocol.TriggeredReportAnswer" = some Source.Hytera.LocationProtocol.TriggeredReportAnswer := class_at 10 _ LocationProtocol.file 5 Source.Hytera.LocationProtocol.TriggeredReportAnswer rfl

/-- okdmr/kaitai/hytera/location_protocol.py:209-221 against `Dmr.Hytera.LocationProtocol.TriggeredReportAnswer`. -/
@[py] theorem LocationProtocol_TriggeredReportAnswer_builds (n : Nat) (H : List Obj) (S : List Stream) (k : Nat) (hk : k < S.length) (s : Stream)
    (parent root : Val) : ((calls library (n + 5)).construct "Hytera.LocationProtocol.TriggeredReportAnswer" [.io k, parent, root]).run ⟨H, S.set k s⟩ =
      after Dmr.Hytera.LocationProtocol.TriggeredReportAnswer.read s (fun e s' => .raise e ⟨H, S.set k s'⟩)
        (built Dmr.Hytera.LocationProtocol.TriggeredReportAnswer.toPy k parent root H S) := by
  rw [construct_eq library _ "Hytera.LocationProtocol.TriggeredReportAnswer" _ _ LocationProtocol_TriggeredReportAnswer_class rfl rfl]
  py_run [onStream_set _ _ _ _ hk, hk, Dmr.Hytera.LocationProtocol.TriggeredReportAnswer.read, Dmr.Hytera.LocationProtocol.TriggeredReportAnswer.toPy]

@[py] theorem LocationProtocol_TriggeredReportAnswer_place (io parent root : Val) (b : Nat) (x : Dmr.Hytera.LocationProtocol.TriggeredReportAnswer) :
    place io parent root b x.toPy = (.obj b, placeObj io parent root b x.toPy) :=
  place_part _ _ _ _ _ _ (by decide)

theorem LocationProtocol_StandardAnswerWithRssi_class : library.class "Hytera.LocationProtocol.StandardAnswerWithRssi" = some Source.Hytera.LocationProtocol.StandardAnswerWithRssi := class_at 10 _ LocationProtocol.file 6 Source.Hytera.LocationProtocol.StandardAnswerWithRssi rfl

/-- okdmr/kaitai/hytera/location_protocol.py:223-237 against `Dmr.Hytera.LocationProtocol.StandardAnswerWithRssi`. -/
@[py] theorem LocationProtocol_StandardAnswerWithRssi_builds (n : Nat) (H : List Obj) (S : List Stream) (k : Nat) (hk : k < S.length) (s : Stream)
    (parent root : Val) : ((calls library (n + 5)).construct "Hytera.LocationProtocol.StandardAnswerWithRssi" [.io k, parent, root]).run ⟨H, S.set k s⟩ =
      after Dmr.Hytera.LocationProtocol.StandardAnswerWithRssi.read s (fun e s' => .raise e ⟨H, S.set k s'⟩)
        (built Dmr.Hytera.LocationProtocol.StandardAnswerWithRssi.toPy k parent root H S) := by
  rw [construct_eq library _ "Hytera.LocationProtocol.StandardAnswerWithRssi" _ _ LocationProtocol_StandardAnswerWithRssi_class rfl rfl]
  py_run [onStream_set _ _ _ _ hk, hk, Dmr.Hytera.LocationProtocol.StandardAnswerWithRssi.read, Dmr.Hytera.LocationProtocol.StandardAnswerWithRssi.toPy]

@[py] theorem LocationProtocol_StandardAnswerWithRssi_place (io parent root : Val) (b : Nat) (x : Dmr.Hytera.LocationProtocol.StandardAnswerWithRssi) :
    place io parent root b x.toPy = (.obj b, placeObj io parent root b x.toPy) :=
  place_part _ _ _ _ _ _ (by decide)

theorem LocationProtocol_StandardRequest_class : library.class "Hytera.LocationProtocol.StandardRequest" = some Source.Hytera.LocationProtocol.StandardRequest := class_at 10 _ LocationProtocol.file 8 Source.Hytera.LocationProtocol.StandardRequest rfl

/-- okdmr/kaitai/hytera/location_protocol.py:254-263 against `Dmr.Hytera.LocationProtocol.StandardRequest`. -/
@[py] theorem LocationProtocol_StandardRequest_builds (n : Nat) (H : List Obj) (S : List Stream) (k : Nat) (hk : k < S.length) (s : Stream)
    (parent root : Val) : ((calls library (n + 5)).construct "Hytera.LocationProtocol.StandardRequest" [.io k, parent, root]).run ⟨H, S.set k s⟩ =
      after Dmr.Hytera.LocationProtocol.StandardRequest.read s (fun e s' => .raise e ⟨H, S.set k s'⟩)
        (built Dmr.Hytera.LocationProtocol.StandardRequest.toPy k parent root H S) := by
  rw [construct_eq library _ "Hytera.LocationProtocol.StandardRequest" _ _ LocationProtocol_StandardRequest_class rfl rfl]
  py_run [onStream_set _ _ _ _ hk, hk, Dmr.Hytera.LocationProtocol.StandardRequest.read, Dmr.Hytera.LocationProtocol.StandardRequest.toPy]

@[py] theorem LocationProtocol_StandardRequest_place (io parent root : Val) (b : Nat) (x : Dmr.Hytera.LocationProtocol.StandardRequest) :
    place io parent root b x.toPy = (.obj b, placeObj io parent root b x.toPy) :=
  place_part _ _ _ _ _ _ (by decide)

theorem LocationProtocol_TriggeredReportRequest_class : library.class "Hytera.LocationProtocol.TriggeredReportRequest" = some Source.Hytera.LocationProtocol.TriggeredReportRequest := class_at 10 _ LocationProtocol.file 9 Source.Hytera.LocationProtocol.TriggeredReportRequest rfl

/-- okdmr/kaitai/hytera/location_protocol.py:265-277 against `Dmr.Hytera.LocationProtocol.TriggeredReportRequest`. -/
@[py] theorem LocationProtocol_TriggeredReportRequest_builds (n : Nat) (H : List Obj) (S : List Stream) (k : Nat) (hk : k < S.length) (s : Stream)
    (parent root : Val) : ((calls library (n + 5)).construct "Hytera.LocationProtocol.TriggeredReportRequest" [.io k, parent, root]).run ⟨H, S.set k s⟩ =
      after Dmr.Hytera.LocationProtocol.TriggeredReportRequest.read s (fun e s' => .raise e ⟨H, S.set k s'⟩)
        (built Dmr.Hytera.LocationProtocol.TriggeredReportRequest.toPy k parent root H S) := by
  rw [construct_eq library _ "Hytera.LocationProtocol.TriggeredReportRequest" _ _ LocationProtocol_TriggeredReportRequest_class rfl rfl]
  py_run [onStream_set _ _ _ _ hk, hk, Dmr.Hytera.LocationProtocol.TriggeredReportRequest.read, Dmr.Hytera.LocationProtocol.TriggeredReportRequest.toPy]

@[py] theorem LocationProtocol_TriggeredReportRequest_place (io parent root : Val) (b : Nat) (x : Dmr.Hytera.LocationProtocol.TriggeredReportRequest) :
    place io parent root b x.toPy = (.obj b, placeObj io parent root b x.toPy) :=
  place_part _ _ _ _ _ _ (by decide)

theorem LocationProtocol_StandardAnswer_class : library.class "Hytera.LocationProtocol.StandardAnswer" = some Source.Hytera.LocationProtocol.StandardAnswer := class_at 10 _ LocationProtocol.file 10 Source.Hytera.LocationProtocol.StandardAnswer rfl

/-- okdmr/kaitai/hytera/location_protocol.py:279-292 against `Dmr.Hytera.LocationProtocol.StandardAnswer`. -/
@[py] theorem LocationProtocol_StandardAnswer_builds (n : Nat) (H : List Obj) (S : List Stream) (k : Nat) (hk : k < S.length) (s : Stream)
    (parent root : Val) : ((calls library (n + 5)).construct "Hytera.LocationProtocol.StandardAnswer" [.io k, parent, root]).run ⟨H, S.set k s⟩ =
      after Dmr.Hytera.LocationProtocol.StandardAnswer.read s (fun e s' => .raise e ⟨H, S.set k s'⟩)
        (built Dmr.Hytera.LocationProtocol.StandardAnswer.toPy k parent root H S) := by
  rw [construct_eq library _ "Hytera.LocationProtocol.StandardAnswer" _ _ LocationProtocol_StandardAnswer_class rfl rfl]
  py_run [onStream_set _ _ _ _ hk, hk, Dmr.Hytera.LocationProtocol.StandardAnswer.read, Dmr.Hytera.LocationProtocol.StandardAnswer.toPy]

@[py] theorem LocationProtocol_StandardAnswer_place (io parent root : Val) (b : Nat) (x : Dmr.Hytera.LocationProtocol.StandardAnswer) :
    place io parent root b x.toPy = (.obj b, placeObj io parent root b x.toPy) :=
  place_part _ _ _ _ _ _ (by decide)

theorem LocationProtocol_ConditionReportAnswer_class : library.class "Hytera.LocationProtocol.ConditionReportAnswer" = some Source.Hytera.LocationProtocol.ConditionReportAnswer := class_at 10 _ LocationProtocol.file 11 Source.Hytera.LocationProtocol.ConditionReportAnswer rfl

/-- okdmr/kaitai/hytera/location_protocol.py:294-309 against `Dmr.Hytera.LocationProtocol.ConditionReportAnswer`. -/
@[py] theorem LocationProtocol_ConditionReportAnswer_builds (n : Nat) (H : List Obj) (S : List Stream) (k : Nat) (hk : k < S.length) (s : Stream)
    (parent root : Val) : ((calls library (n + 5)).construct "Hytera.LocationProtocol.ConditionReportAnswer" [.io k, parent, root]).run ⟨H, S.set k s⟩ =
      after Dmr.Hytera.LocationProtocol.ConditionReportAnswer.read s (fun e s' => .raise e ⟨H, S.set k s'⟩)
        (built Dmr.Hytera.LocationProtocol.ConditionReportAnswer.toPy k parent root H S) := by
  rw [construct_eq library _ "Hytera.LocationProtocol.ConditionReportAnswer" _ _ LocationProtocol_ConditionReportAnswer_class rfl rfl]
  py_run [onStream_set _ _ _ _ hk, hk, Dmr.Hytera.LocationProtocol.ConditionReportAnswer.read, Dmr.Hytera.LocationProtocol.ConditionReportAnswer.toPy]

@[py] theorem LocationProtocol_ConditionReportAnswer_place (io parent root : Val) (b : Nat) (x : Dmr.Hytera.LocationProtocol.ConditionReportAnswer) :
    place io parent root b x.toPy = (.obj b, placeObj io parent root b x.toPy) :=
  place_part _ _ _ _ _ _ (by decide)

theorem LocationProtocol_EmergencyReportStopRequest_class : library.class "Hytera.LocationProtocol.EmergencyReportStopRequest" = some Source.Hytera.LocationProtocol.EmergencyReportStopRequest := class_at 10 _ LocationProtocol.file 12 Source.Hytera.LocationProtocol.EmergencyReportStopRequest rfl

/-- okdmr/kaitai/hytera/location_protocol.py:311-320 against `Dmr.Hytera.LocationProtocol.EmergencyReportStopRequest`. -/
@[py] theorem LocationProtocol_EmergencyReportStopRequest_builds (n : Nat) (H : List Obj) (S : List Stream) (k : Nat) (hk : k < S.length) (s : Stream)
    (parent root : Val) : ((calls library (n + 5)).construct "Hytera.LocationProtocol.EmergencyReportStopRequest" [.io k, parent, root]).run ⟨H, S.set k s⟩ =
      after Dmr.Hytera.LocationProtocol.EmergencyReportStopRequest.read s (fun e s' => .raise e ⟨H, S.set k s'⟩)
        (built Dmr.Hytera.LocationProtocol.EmergencyReportStopRequest.toPy k parent root H S) := by
  rw [construct_eq library _ "Hytera.LocationProtocol.EmergencyReportStopRequest" _ _ LocationProtocol_EmergencyReportStopRequest_class rfl rfl]
  py_run [onStream_set _ _ _ _ hk, hk, Dmr.Hytera.LocationProtocol.EmergencyReportStopRequest.read, Dmr.Hytera.LocationProtocol.EmergencyReportStopRequest.toPy]

@[py] theorem LocationProtocol_EmergencyReportStopRequest_place (io parent root : Val) (b : Nat) (x : Dmr.Hytera.LocationProtocol.EmergencyReportStopRequest) :
    place io parent root b x.toPy = (.obj b, placeObj io parent root b x.toPy) :=
  place_part _ _ _ _ _ _ (by decide)

theorem LocationProtocol_ConditionQuickGpsAnswer_class : library.class "Hytera.LocationProtocol.ConditionQuickGpsAnswer" = some Source.Hytera.LocationProtocol.ConditionQuickGpsAnswer := class_at 10 _ LocationProtocol.file 13 Source.Hytera.LocationProtocol.ConditionQuickGpsAnswer rfl

/-- okdmr/kaitai/hytera/location_protocol.py:322-337 against `Dmr.Hytera.LocationProtocol.ConditionQuickGpsAnswer`. -/
@[py] theorem LocationProtocol_ConditionQuickGpsAnswer_builds (n : Nat) (H : List Obj) (S : List Stream) (k : Nat) (hk : k < S.length) (s : Stream)
    (parent root : Val) : ((calls library (n + 5)).construct "Hytera.LocationProtocol.ConditionQuickGpsAnswer" [.io k, parent, root]).run ⟨H, S.set k s⟩ =
      after Dmr.Hytera.LocationProtocol.ConditionQuickGpsAnswer.read s (fun e s' => .raise e ⟨H, S.set k s'⟩)
        (built Dmr.Hytera.LocationProtocol.ConditionQuickGpsAnswer.toPy k parent root H S) := by
  rw [construct_eq library _ "Hytera.LocationProtocol.ConditionQuickGpsAnswer" _ _ LocationProtocol_ConditionQuickGpsAnswer_class rfl rfl]
  py_run [onStream_set _ _ _ _ hk, hk, Dmr.Hytera.LocationProtocol.ConditionQuickGpsAnswer.read, Dmr.Hytera.LocationProtocol.ConditionQuickGpsAnswer.toPy]

@[py] theorem LocationProtocol_ConditionQuickGpsAnswer_place (io parent root : Val) (b : Nat) (x : Dmr.Hytera.LocationProtocol.ConditionQuickGpsAnswer) :
    place io parent root b x.toPy = (.obj b, placeObj io parent root b x.toPy) :=
  place_part _ _ _ _ _ _ (by decide)

theorem LocationProtocol_TriggeredReport_class : library.class "Hytera.LocationProtocol.TriggeredReport" = some Source.Hytera.LocationProtocol.TriggeredReport := class_at 10 _ LocationProtocol.file 14 Source.Hytera.LocationProtocol.TriggeredReport rfl

/-- okdmr/kaitai/hytera/location_protocol.py:339-350 against `Dmr.Hytera.LocationProtocol.TriggeredReport`. -/
@[py] theorem LocationProtocol_TriggeredReport_builds (n : Nat) (H : List Obj) (S : List Stream) (k : Nat) (hk : k < S.length) (s : Stream)
    (parent root : Val) : ((calls library (n + 5)).construct "Hytera.LocationProtocol.TriggeredReport" [.io k, parent, root]).run ⟨H, S.set k s⟩ =
      after Dmr.Hytera.LocationProtocol.TriggeredReport.read s (fun e s' => .raise e ⟨H, S.set k s'⟩)
        (built Dmr.Hytera.LocationProtocol.TriggeredReport.toPy k parent root H S) := by
  rw [construct_eq library _ "Hytera.LocationProtocol.TriggeredReport" _ _ LocationProtocol_TriggeredReport_class rfl rfl]
  py_run [onStream_set _ _ _ _ hk, hk, Dmr.Hytera.LocationProtocol.TriggeredReport.read, Dmr.Hytera.LocationProtocol.TriggeredReport.toPy]

@[py] theorem LocationProtocol_TriggeredReport_place (io parent root : Val) (b : Nat) (x : Dmr.Hytera.LocationProtocol.TriggeredReport) :
    place io parent root b x.toPy = (.obj b, placeObj io parent root b x.toPy) :=
  place_part _ _ _ _ _ _ (by decide)

theorem LocationProtocol_ConditionReportWithRssi_class : library.class "Hytera.LocationProtocol.ConditionReportWithRssi" = some Source.Hytera.LocationProtocol.ConditionReportWithRssi := class_at 10 _ LocationProtocol.file 15 Source.Hytera.LocationProtocol.ConditionReportWithRssi rfl

/-- okdmr/kaitai/hytera/location_protocol.py:352-366 against `Dmr.Hytera.LocationProtocol.ConditionReportWithRssi`. -/
@[py] theorem LocationProtocol_ConditionReportWithRssi_builds (n : Nat) (H : List Obj) (S : List Stream) (k : Nat) (hk : k < S.length) (s : Stream)
    (parent root : Val) : ((calls library (n + 5)).construct "Hytera.LocationProtocol.ConditionReportWithRssi" [.io k, parent, root]).run ⟨H, S.set k s⟩ =
      after Dmr.Hytera.LocationProtocol.ConditionReportWithRssi.read s (fun e s' => .raise e ⟨H, S.set k s'⟩)
        (built Dmr.Hytera.LocationProtocol.ConditionReportWithRssi.toPy k parent root H S) := by
  rw [construct_eq library _ "Hytera.LocationProtocol.ConditionReportWithRssi" _ _ LocationProtocol_ConditionReportWithRssi_class rfl rfl]
  py_run [onStream_set _ _ _ _ hk, hk, Dmr.Hytera.LocationProtocol.ConditionReportWithRssi.read, Dmr.Hytera.LocationProtocol.ConditionReportWithRssi.toPy]

@[py] theorem LocationProtocol_ConditionReportWithRssi_place (io parent root : Val) (b : Nat) (x : Dmr.Hytera.LocationProtocol.ConditionReportWithRssi) :
    place io parent root b x.toPy = (.obj b, placeObj io parent root b x.toPy) :=
  place_part _ _ _ _ _ _ (by decide)

theorem LocationProtocol_EmergencyReportStopAnswer_class : library.class "Hytera.LocationProtocol.EmergencyReportStopAnswer" = some Source.Hytera.LocationProtocol.EmergencyReportStopAnswer := class_at 10 _ LocationProtocol.file 16 Source.Hytera.LocationProtocol.EmergencyReportStopAnswer rfl

/-- okdmr/kaitai/hytera/location_protocol.py:368-380 against `Dmr.Hytera.LocationProtocol.EmergencyReportStopAnswer`. -/
@[py] theorem LocationProtocol_EmergencyReportStopAnswer_builds (n : Nat) (H : List Obj) (S : List Stream) (k : Nat) (hk : k < S.length) (s : Stream)
    (parent root : Val) : ((calls library (n + 5)).construct "Hytera.LocationProtocol.EmergencyReportStopAnswer" [.io k, parent, root]).run ⟨H, S.set k s⟩ =
      after Dmr.Hytera.LocationProtocol.EmergencyReportStopAnswer.read s (fun e s' => .raise e ⟨H, S.set k s'⟩)
        (built Dmr.Hytera.LocationProtocol.EmergencyReportStopAnswer.toPy k parent root H S) := by
  rw [construct_eq library _ "Hytera.LocationProtocol.EmergencyReportStopAnswer" _ _ LocationProtocol_EmergencyReportStopAnswer_class rfl rfl]
  py_run [onStream_set _ _ _ _ hk, hk, Dmr.Hytera.LocationProtocol.EmergencyReportStopAnswer.read, Dmr.Hytera.LocationProtocol.EmergencyReportStopAnswer.toPy]

@[py] theorem LocationProtocol_EmergencyReportStopAnswer_place (io parent root : Val) (b : Nat) (x : Dmr.Hytera.LocationProtocol.EmergencyReportStopAnswer) :
    place io parent root b x.toPy = (.obj b, placeObj io parent root b x.toPy) :=
  place_part _ _ _ _ _ _ (by decide)

theorem LocationProtocol_TriggeredReportStopRequest_class : library.class "Hytera.LocationProtocol.TriggeredReportStopRequest" = some Source.Hytera.LocationProtocol.TriggeredReportStopRequest := class_at 10 _ LocationProtocol.file 17 Source.Hytera.LocationProtocol.TriggeredReportStopRequest rfl

/-- okdmr/kaitai/hytera/location_protocol.py:382-391 against `Dmr.Hytera.LocationProtocol.TriggeredReportStopRequest`. -/
@[py] theorem LocationProtocol_TriggeredReportStopRequest_builds (n : Nat) (H : List Obj) (S : List Stream) (k : Nat) (hk : k < S.length) (s : Stream)
    (parent root : Val) : ((calls library (n + 5)).construct "Hytera.LocationProtocol.TriggeredReportStopRequest" [.io k, parent, root]).run ⟨H, S.set k s⟩ =
      after Dmr.Hytera.LocationProtocol.TriggeredReportStopRequest.read s (fun e s' => .raise e ⟨H, S.set k s'⟩)
        (built Dmr.Hytera.LocationProtocol.TriggeredReportStopRequest.toPy k parent root H S) := by
  rw [construct_eq library _ "Hytera.LocationProtocol.TriggeredReportStopRequest" _ _ LocationProtocol_TriggeredReportStopRequest_class rfl rfl]
  py_run [onStream_set _ _ _ _ hk, hk, Dmr.Hytera.LocationProtocol.TriggeredReportStopRequest.read, Dmr.Hytera.LocationProtocol.TriggeredReportStopRequest.toPy]

@[py] theorem LocationProtocol_TriggeredReportStopRequest_place (io parent root : Val) (b : Nat) (x : Dmr.Hytera.LocationProtocol.TriggeredReportStopRequest) :
    place io parent root b x.toPy = (.obj b, placeObj io parent root b x.toPy) :=
  place_part _ _ _ _ _ _ (by decide)

theorem LocationProtocol_class : library.class "Hytera.LocationProtocol" = some Source.Hytera.LocationProtocol := class_at 10 _ LocationProtocol.file 18 Source.Hytera.LocationProtocol rfl

@[py] theorem LocationProtocol_property (x : String) : library.property "Hytera.LocationProtocol" x = Source.Hytera.LocationProtocol.properties.lookup x :=
  property_of _ _ _ _ LocationProtocol_class

/-- okdmr/kaitai/hytera/location_protocol.py:20-404 against `Dmr.Hytera.LocationProtocol`. -/
@[py] theorem LocationProtocol_builds (n : Nat) (H : List Obj) (S : List Stream) (k : Nat) (hk : k < S.length) (s : Stream)
    (parent root : Val) : ((calls library (n + 9)).construct "Hytera.LocationProtocol" [.io k, parent, root]).run ⟨H, S.set k s⟩ =
      after Dmr.Hytera.LocationProtocol.read s (fun e s' => .raise e ⟨H, S.set k s'⟩)
        (built Dmr.Hytera.LocationProtocol.toPy k parent root H S) := by
  rw [construct_eq library _ "Hytera.LocationProtocol" _ _ LocationProtocol_class rfl rfl]
  py_run [onStream_set _ _ _ _ hk, hk, Dmr.Hytera.LocationProtocol.read, Dmr.Hytera.LocationProtocol.toPy, Dmr.Hytera.LocationProtocol.readData, Dmr.Hytera.LocationProtocol.computeOpcode, Dmr.Hytera.LocationProtocol.DataUnion.toPy, Source.Hytera.LocationProtocol]

@[py] theorem LocationProtocol_short (n k : Nat) : (calls library (n + 9)).construct "Hytera.LocationProtocol" [.io k] =
    (calls library (n + 9)).construct "Hytera.LocationProtocol" [.io k, .pv .none, .pv .none] := construct_short _ _ _ _ LocationProtocol_class rfl _

@[py] theorem LocationProtocol_place (io parent root : Val) (b : Nat) (x : Dmr.Hytera.LocationProtocol) :
    place io parent root b x.toPy = (.obj b, placeObj io (.pv .none) (.obj b) b x.toPy) :=
  place_file _ _ _ _ _ _ (by decide)

end Dmr.Py.ConformHytera
