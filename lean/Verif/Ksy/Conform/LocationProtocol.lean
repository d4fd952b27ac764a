import Verif.Ksy.Conform.Base
import Verif.Ksy.Conform.Datetimestring
import Verif.Ksy.Conform.Gpsdata
import Verif.Ksy.Conform.Intervalstring
import Verif.Ksy.Conform.RadioIp
/-
Generated by tools/mkconform.py: the schema of `LocationProtocol` against the model of the Python classes.
-/

set_option linter.unusedSimpArgs false
set_option maxHeartbeats 1000000

namespace Dmr.Ksy.Hytera

@[ksy] theorem resolve_LocationProtocol_LpGeneralTypes (v : Nat) : Hytera.LocationProtocol.LpGeneralTypes.resolve v = EnumVal.toPy "LpGeneralTypes" (resolveEnum Dmr.Hytera.LocationProtocol.LpGeneralTypes v) :=
  resolve_eq _ (by decide) v

@[ksy ↓] theorem read_LocationProtocol_LpGeneralTypes_u1 (ev sub) : readTy ev sub (.primEnum .u1 Hytera.LocationProtocol.LpGeneralTypes) =
    asEnum Dmr.Hytera.LocationProtocol.LpGeneralTypes readU1 >>= fun e => pure (some (EnumVal.toPy "LpGeneralTypes" e)) :=
  enum_prim resolve_LocationProtocol_LpGeneralTypes .u1 readU1 rfl ev sub

@[ksy] theorem resolve_LocationProtocol_LpSpecificTypes (v : Nat) : Hytera.LocationProtocol.LpSpecificTypes.resolve v = EnumVal.toPy "LpSpecificTypes" (resolveEnum Dmr.Hytera.LocationProtocol.LpSpecificTypes v) :=
  resolve_eq _ (by decide) v

@[ksy ↓] theorem read_LocationProtocol_LpSpecificTypes_u2be (ev sub) : readTy ev sub (.primEnum .u2be Hytera.LocationProtocol.LpSpecificTypes) =
    asEnum Dmr.Hytera.LocationProtocol.LpSpecificTypes readU2be >>= fun e => pure (some (EnumVal.toPy "LpSpecificTypes" e)) :=
  enum_prim resolve_LocationProtocol_LpSpecificTypes .u2be readU2be rfl ev sub

@[ksy] theorem member_LocationProtocol_LpSpecificTypes_condition_quick_gps_answer : Hytera.LocationProtocol.LpSpecificTypes.member "condition_quick_gps_answer" = pure (.enum "LpSpecificTypes" 53266) := rfl

@[ksy] theorem same_LocationProtocol_LpSpecificTypes_condition_quick_gps_answer (on : EnumVal Dmr.Hytera.LocationProtocol.LpSpecificTypes) :
    same (EnumVal.toPy "LpSpecificTypes" on) (.enum "LpSpecificTypes" 53266) = decide (on = .known .condition_quick_gps_answer) :=
  same_known _ _ Dmr.Hytera.LocationProtocol.LpSpecificTypes.condition_quick_gps_answer

@[ksy] theorem member_LocationProtocol_LpSpecificTypes_condition_quick_gps_request : Hytera.LocationProtocol.LpSpecificTypes.member "condition_quick_gps_request" = pure (.enum "LpSpecificTypes" 53265) := rfl

@[ksy] theorem same_LocationProtocol_LpSpecificTypes_condition_quick_gps_request (on : EnumVal Dmr.Hytera.LocationProtocol.LpSpecificTypes) :
    same (EnumVal.toPy "LpSpecificTypes" on) (.enum "LpSpecificTypes" 53265) = decide (on = .known .condition_quick_gps_request) :=
  same_known _ _ Dmr.Hytera.LocationProtocol.LpSpecificTypes.condition_quick_gps_request

@[ksy] theorem member_LocationProtocol_LpSpecificTypes_condition_report : Hytera.LocationProtocol.LpSpecificTypes.member "condition_report" = pure (.enum "LpSpecificTypes" 53251) := rfl

@[ksy] theorem same_LocationProtocol_LpSpecificTypes_condition_report (on : EnumVal Dmr.Hytera.LocationProtocol.LpSpecificTypes) :
    same (EnumVal.toPy "LpSpecificTypes" on) (.enum "LpSpecificTypes" 53251) = decide (on = .known .condition_report) :=
  same_known _ _ Dmr.Hytera.LocationProtocol.LpSpecificTypes.condition_report

@[ksy] theorem member_LocationProtocol_LpSpecificTypes_condition_report_answer : Hytera.LocationProtocol.LpSpecificTypes.member "condition_report_answer" = pure (.enum "LpSpecificTypes" 53250) := rfl

@[ksy] theorem same_LocationProtocol_LpSpecificTypes_condition_report_answer (on : EnumVal Dmr.Hytera.LocationProtocol.LpSpecificTypes) :
    same (EnumVal.toPy "LpSpecificTypes" on) (.enum "LpSpecificTypes" 53250) = decide (on = .known .condition_report_answer) :=
  same_known _ _ Dmr.Hytera.LocationProtocol.LpSpecificTypes.condition_report_answer

@[ksy] theorem member_LocationProtocol_LpSpecificTypes_condition_report_request : Hytera.LocationProtocol.LpSpecificTypes.member "condition_report_request" = pure (.enum "LpSpecificTypes" 53249) := rfl

@[ksy] theorem same_LocationProtocol_LpSpecificTypes_condition_report_request (on : EnumVal Dmr.Hytera.LocationProtocol.LpSpecificTypes) :
    same (EnumVal.toPy "LpSpecificTypes" on) (.enum "LpSpecificTypes" 53249) = decide (on = .known .condition_report_request) :=
  same_known _ _ Dmr.Hytera.LocationProtocol.LpSpecificTypes.condition_report_request

@[ksy] theorem member_LocationProtocol_LpSpecificTypes_condition_report_with_rssi : Hytera.LocationProtocol.LpSpecificTypes.member "condition_report_with_rssi" = pure (.enum "LpSpecificTypes" 53252) := rfl

@[ksy] theorem same_LocationProtocol_LpSpecificTypes_condition_report_with_rssi (on : EnumVal Dmr.Hytera.LocationProtocol.LpSpecificTypes) :
    same (EnumVal.toPy "LpSpecificTypes" on) (.enum "LpSpecificTypes" 53252) = decide (on = .known .condition_report_with_rssi) :=
  same_known _ _ Dmr.Hytera.LocationProtocol.LpSpecificTypes.condition_report_with_rssi

@[ksy] theorem member_LocationProtocol_LpSpecificTypes_emergency_report : Hytera.LocationProtocol.LpSpecificTypes.member "emergency_report" = pure (.enum "LpSpecificTypes" 45059) := rfl

@[ksy] theorem same_LocationProtocol_LpSpecificTypes_emergency_report (on : EnumVal Dmr.Hytera.LocationProtocol.LpSpecificTypes) :
    same (EnumVal.toPy "LpSpecificTypes" on) (.enum "LpSpecificTypes" 45059) = decide (on = .known .emergency_report) :=
  same_known _ _ Dmr.Hytera.LocationProtocol.LpSpecificTypes.emergency_report

@[ksy] theorem member_LocationProtocol_LpSpecificTypes_emergency_report_stop_answer : Hytera.LocationProtocol.LpSpecificTypes.member "emergency_report_stop_answer" = pure (.enum "LpSpecificTypes" 45058) := rfl

@[ksy] theorem same_LocationProtocol_LpSpecificTypes_emergency_report_stop_answer (on : EnumVal Dmr.Hytera.LocationProtocol.LpSpecificTypes) :
    same (EnumVal.toPy "LpSpecificTypes" on) (.enum "LpSpecificTypes" 45058) = decide (on = .known .emergency_report_stop_answer) :=
  same_known _ _ Dmr.Hytera.LocationProtocol.LpSpecificTypes.emergency_report_stop_answer

@[ksy] theorem member_LocationProtocol_LpSpecificTypes_emergency_report_stop_request : Hytera.LocationProtocol.LpSpecificTypes.member "emergency_report_stop_request" = pure (.enum "LpSpecificTypes" 45057) := rfl

@[ksy] theorem same_LocationProtocol_LpSpecificTypes_emergency_report_stop_request (on : EnumVal Dmr.Hytera.LocationProtocol.LpSpecificTypes) :
    same (EnumVal.toPy "LpSpecificTypes" on) (.enum "LpSpecificTypes" 45057) = decide (on = .known .emergency_report_stop_request) :=
  same_known _ _ Dmr.Hytera.LocationProtocol.LpSpecificTypes.emergency_report_stop_request

@[ksy] theorem member_LocationProtocol_LpSpecificTypes_standard_answer : Hytera.LocationProtocol.LpSpecificTypes.member "standard_answer" = pure (.enum "LpSpecificTypes" 40962) := rfl

@[ksy] theorem same_LocationProtocol_LpSpecificTypes_standard_answer (on : EnumVal Dmr.Hytera.LocationProtocol.LpSpecificTypes) :
    same (EnumVal.toPy "LpSpecificTypes" on) (.enum "LpSpecificTypes" 40962) = decide (on = .known .standard_answer) :=
  same_known _ _ Dmr.Hytera.LocationProtocol.LpSpecificTypes.standard_answer

@[ksy] theorem member_LocationProtocol_LpSpecificTypes_standard_answer_with_rssi : Hytera.LocationProtocol.LpSpecificTypes.member "standard_answer_with_rssi" = pure (.enum "LpSpecificTypes" 40963) := rfl

@[ksy] theorem same_LocationProtocol_LpSpecificTypes_standard_answer_with_rssi (on : EnumVal Dmr.Hytera.LocationProtocol.LpSpecificTypes) :
    same (EnumVal.toPy "LpSpecificTypes" on) (.enum "LpSpecificTypes" 40963) = decide (on = .known .standard_answer_with_rssi) :=
  same_known _ _ Dmr.Hytera.LocationProtocol.LpSpecificTypes.standard_answer_with_rssi

@[ksy] theorem member_LocationProtocol_LpSpecificTypes_standard_request : Hytera.LocationProtocol.LpSpecificTypes.member "standard_request" = pure (.enum "LpSpecificTypes" 40961) := rfl

@[ksy] theorem same_LocationProtocol_LpSpecificTypes_standard_request (on : EnumVal Dmr.Hytera.LocationProtocol.LpSpecificTypes) :
    same (EnumVal.toPy "LpSpecificTypes" on) (.enum "LpSpecificTypes" 40961) = decide (on = .known .standard_request) :=
  same_known _ _ Dmr.Hytera.LocationProtocol.LpSpecificTypes.standard_request

@[ksy] theorem member_LocationProtocol_LpSpecificTypes_triggered_report : Hytera.LocationProtocol.LpSpecificTypes.member "triggered_report" = pure (.enum "LpSpecificTypes" 49155) := rfl

@[ksy] theorem same_LocationProtocol_LpSpecificTypes_triggered_report (on : EnumVal Dmr.Hytera.LocationProtocol.LpSpecificTypes) :
    same (EnumVal.toPy "LpSpecificTypes" on) (.enum "LpSpecificTypes" 49155) = decide (on = .known .triggered_report) :=
  same_known _ _ Dmr.Hytera.LocationProtocol.LpSpecificTypes.triggered_report

@[ksy] theorem member_LocationProtocol_LpSpecificTypes_triggered_report_answer : Hytera.LocationProtocol.LpSpecificTypes.member "triggered_report_answer" = pure (.enum "LpSpecificTypes" 49154) := rfl

@[ksy] theorem same_LocationProtocol_LpSpecificTypes_triggered_report_answer (on : EnumVal Dmr.Hytera.LocationProtocol.LpSpecificTypes) :
    same (EnumVal.toPy "LpSpecificTypes" on) (.enum "LpSpecificTypes" 49154) = decide (on = .known .triggered_report_answer) :=
  same_known _ _ Dmr.Hytera.LocationProtocol.LpSpecificTypes.triggered_report_answer

@[ksy] theorem member_LocationProtocol_LpSpecificTypes_triggered_report_request : Hytera.LocationProtocol.LpSpecificTypes.member "triggered_report_request" = pure (.enum "LpSpecificTypes" 49153) := rfl

@[ksy] theorem same_LocationProtocol_LpSpecificTypes_triggered_report_request (on : EnumVal Dmr.Hytera.LocationProtocol.LpSpecificTypes) :
    same (EnumVal.toPy "LpSpecificTypes" on) (.enum "LpSpecificTypes" 49153) = decide (on = .known .triggered_report_request) :=
  same_known _ _ Dmr.Hytera.LocationProtocol.LpSpecificTypes.triggered_report_request

@[ksy] theorem member_LocationProtocol_LpSpecificTypes_triggered_report_stop_answer : Hytera.LocationProtocol.LpSpecificTypes.member "triggered_report_stop_answer" = pure (.enum "LpSpecificTypes" 49157) := rfl

@[ksy] theorem same_LocationProtocol_LpSpecificTypes_triggered_report_stop_answer (on : EnumVal Dmr.Hytera.LocationProtocol.LpSpecificTypes) :
    same (EnumVal.toPy "LpSpecificTypes" on) (.enum "LpSpecificTypes" 49157) = decide (on = .known .triggered_report_stop_answer) :=
  same_known _ _ Dmr.Hytera.LocationProtocol.LpSpecificTypes.triggered_report_stop_answer

@[ksy] theorem member_LocationProtocol_LpSpecificTypes_triggered_report_stop_request : Hytera.LocationProtocol.LpSpecificTypes.member "triggered_report_stop_request" = pure (.enum "LpSpecificTypes" 49156) := rfl

@[ksy] theorem same_LocationProtocol_LpSpecificTypes_triggered_report_stop_request (on : EnumVal Dmr.Hytera.LocationProtocol.LpSpecificTypes) :
    same (EnumVal.toPy "LpSpecificTypes" on) (.enum "LpSpecificTypes" 49156) = decide (on = .known .triggered_report_stop_request) :=
  same_known _ _ Dmr.Hytera.LocationProtocol.LpSpecificTypes.triggered_report_stop_request

@[ksy] theorem resolve_LocationProtocol_CmdTypes (v : Nat) : Hytera.LocationProtocol.CmdTypes.resolve v = EnumVal.toPy "CmdTypes" (resolveEnum Dmr.Hytera.LocationProtocol.CmdTypes v) :=
  resolve_eq _ (by decide) v

@[ksy ↓] theorem read_LocationProtocol_CmdTypes_u1 (ev sub) : readTy ev sub (.primEnum .u1 Hytera.LocationProtocol.CmdTypes) =
    asEnum Dmr.Hytera.LocationProtocol.CmdTypes readU1 >>= fun e => pure (some (EnumVal.toPy "CmdTypes" e)) :=
  enum_prim resolve_LocationProtocol_CmdTypes .u1 readU1 rfl ev sub

@[ksy] theorem member_LocationProtocol_CmdTypes_start_request : Hytera.LocationProtocol.CmdTypes.member "start_request" = pure (.enum "CmdTypes" 1) := rfl

@[ksy] theorem same_LocationProtocol_CmdTypes_start_request (on : EnumVal Dmr.Hytera.LocationProtocol.CmdTypes) :
    same (EnumVal.toPy "CmdTypes" on) (.enum "CmdTypes" 1) = decide (on = .known .start_request) :=
  same_known _ _ Dmr.Hytera.LocationProtocol.CmdTypes.start_request

@[ksy] theorem resolve_LocationProtocol_TriggerTypes (v : Nat) : Hytera.LocationProtocol.TriggerTypes.resolve v = EnumVal.toPy "TriggerTypes" (resolveEnum Dmr.Hytera.LocationProtocol.TriggerTypes v) :=
  resolve_eq _ (by decide) v

@[ksy ↓] theorem read_LocationProtocol_TriggerTypes_u1 (ev sub) : readTy ev sub (.primEnum .u1 Hytera.LocationProtocol.TriggerTypes) =
    asEnum Dmr.Hytera.LocationProtocol.TriggerTypes readU1 >>= fun e => pure (some (EnumVal.toPy "TriggerTypes" e)) :=
  enum_prim resolve_LocationProtocol_TriggerTypes .u1 readU1 rfl ev sub

@[ksy] theorem resolve_LocationProtocol_ResultCodes (v : Nat) : Hytera.LocationProtocol.ResultCodes.resolve v = EnumVal.toPy "ResultCodes" (resolveEnum Dmr.Hytera.LocationProtocol.ResultCodes v) :=
  resolve_eq _ (by decide) v

@[ksy ↓] theorem read_LocationProtocol_ResultCodes_u2be (ev sub) : readTy ev sub (.primEnum .u2be Hytera.LocationProtocol.ResultCodes) =
    asEnum Dmr.Hytera.LocationProtocol.ResultCodes readU2be >>= fun e => pure (some (EnumVal.toPy "ResultCodes" e)) :=
  enum_prim resolve_LocationProtocol_ResultCodes .u2be readU2be rfl ev sub

/-- okdmr/kaitai/hytera/location_protocol.ksy:78-82 against `Dmr.Hytera.LocationProtocol.StandardRequest`. -/
@[ksy ↓] theorem LocationProtocol_StandardRequest_conforms (n : Nat) (sc : Scope) :
    parse (n + 2) sc Hytera.LocationProtocol.StandardRequest = (fun x => view (Dmr.Hytera.LocationProtocol.StandardRequest.toPy x)) <$> Dmr.Hytera.LocationProtocol.StandardRequest.read := by
  rw [parse_succ]
  ksy_simp [Dmr.Hytera.LocationProtocol.StandardRequest.read, Dmr.Hytera.LocationProtocol.StandardRequest.toPy]

/-- okdmr/kaitai/hytera/location_protocol.ksy:84-93 against `Dmr.Hytera.LocationProtocol.StandardAnswer`. -/
@[ksy ↓] theorem LocationProtocol_StandardAnswer_conforms (n : Nat) (sc : Scope) :
    parse (n + 2) sc Hytera.LocationProtocol.StandardAnswer = (fun x => view (Dmr.Hytera.LocationProtocol.StandardAnswer.toPy x)) <$> Dmr.Hytera.LocationProtocol.StandardAnswer.read := by
  rw [parse_succ]
  ksy_simp [Dmr.Hytera.LocationProtocol.StandardAnswer.read, Dmr.Hytera.LocationProtocol.StandardAnswer.toPy]

/-- okdmr/kaitai/hytera/location_protocol.ksy:95-107 against `Dmr.Hytera.LocationProtocol.StandardAnswerWithRssi`. -/
@[ksy ↓] theorem LocationProtocol_StandardAnswerWithRssi_conforms (n : Nat) (sc : Scope) :
    parse (n + 2) sc Hytera.LocationProtocol.StandardAnswerWithRssi = (fun x => view (Dmr.Hytera.LocationProtocol.StandardAnswerWithRssi.toPy x)) <$> Dmr.Hytera.LocationProtocol.StandardAnswerWithRssi.read := by
  rw [parse_succ]
  ksy_simp [Dmr.Hytera.LocationProtocol.StandardAnswerWithRssi.read, Dmr.Hytera.LocationProtocol.StandardAnswerWithRssi.toPy]

/-- okdmr/kaitai/hytera/location_protocol.ksy:109-113 against `Dmr.Hytera.LocationProtocol.EmergencyReportStopRequest`. -/
@[ksy ↓] theorem LocationProtocol_EmergencyReportStopRequest_conforms (n : Nat) (sc : Scope) :
    parse (n + 2) sc Hytera.LocationProtocol.EmergencyReportStopRequest = (fun x => view (Dmr.Hytera.LocationProtocol.EmergencyReportStopRequest.toPy x)) <$> Dmr.Hytera.LocationProtocol.EmergencyReportStopRequest.read := by
  rw [parse_succ]
  ksy_simp [Dmr.Hytera.LocationProtocol.EmergencyReportStopRequest.read, Dmr.Hytera.LocationProtocol.EmergencyReportStopRequest.toPy]

/-- okdmr/kaitai/hytera/location_protocol.ksy:115-122 against `Dmr.Hytera.LocationProtocol.EmergencyReportStopAnswer`. -/
@[ksy ↓] theorem LocationProtocol_EmergencyReportStopAnswer_conforms (n : Nat) (sc : Scope) :
    parse (n + 2) sc Hytera.LocationProtocol.EmergencyReportStopAnswer = (fun x => view (Dmr.Hytera.LocationProtocol.EmergencyReportStopAnswer.toPy x)) <$> Dmr.Hytera.LocationProtocol.EmergencyReportStopAnswer.read := by
  rw [parse_succ]
  ksy_simp [Dmr.Hytera.LocationProtocol.EmergencyReportStopAnswer.read, Dmr.Hytera.LocationProtocol.EmergencyReportStopAnswer.toPy]

/-- okdmr/kaitai/hytera/location_protocol.ksy:124-130 against `Dmr.Hytera.LocationProtocol.EmergencyReport`. -/
@[ksy ↓] theorem LocationProtocol_EmergencyReport_conforms (n : Nat) (sc : Scope) :
    parse (n + 2) sc Hytera.LocationProtocol.EmergencyReport = (fun x => view (Dmr.Hytera.LocationProtocol.EmergencyReport.toPy x)) <$> Dmr.Hytera.LocationProtocol.EmergencyReport.read := by
  rw [parse_succ]
  ksy_simp [Dmr.Hytera.LocationProtocol.EmergencyReport.read, Dmr.Hytera.LocationProtocol.EmergencyReport.toPy]

/-- okdmr/kaitai/hytera/location_protocol.ksy:132-142 against `Dmr.Hytera.LocationProtocol.TriggeredReportRequest`. -/
@[ksy ↓] theorem LocationProtocol_TriggeredReportRequest_conforms (n : Nat) (sc : Scope) :
    parse (n + 2) sc Hytera.LocationProtocol.TriggeredReportRequest = (fun x => view (Dmr.Hytera.LocationProtocol.TriggeredReportRequest.toPy x)) <$> Dmr.Hytera.LocationProtocol.TriggeredReportRequest.read := by
  rw [parse_succ]
  ksy_simp [Dmr.Hytera.LocationProtocol.TriggeredReportRequest.read, Dmr.Hytera.LocationProtocol.TriggeredReportRequest.toPy]

/-- okdmr/kaitai/hytera/location_protocol.ksy:144-151 against `Dmr.Hytera.LocationProtocol.TriggeredReportAnswer`. -/
@[ksy ↓] theorem LocationProtocol_TriggeredReportAnswer_conforms (n : Nat) (sc : Scope) :
    parse (n + 2) sc Hytera.LocationProtocol.TriggeredReportAnswer = (fun x => view (Dmr.Hytera.LocationProtocol.TriggeredReportAnswer.toPy x)) <$> Dmr.Hytera.LocationProtocol.TriggeredReportAnswer.read := by
  rw [parse_succ]
  ksy_simp [Dmr.Hytera.LocationProtocol.TriggeredReportAnswer.read, Dmr.Hytera.LocationProtocol.TriggeredReportAnswer.toPy]

/-- okdmr/kaitai/hytera/location_protocol.ksy:153-161 against `Dmr.Hytera.LocationProtocol.TriggeredReport`. -/
@[ksy ↓] theorem LocationProtocol_TriggeredReport_conforms (n : Nat) (sc : Scope) :
    parse (n + 2) sc Hytera.LocationProtocol.TriggeredReport = (fun x => view (Dmr.Hytera.LocationProtocol.TriggeredReport.toPy x)) <$> Dmr.Hytera.LocationProtocol.TriggeredReport.read := by
  rw [parse_succ]
  ksy_simp [Dmr.Hytera.LocationProtocol.TriggeredReport.read, Dmr.Hytera.LocationProtocol.TriggeredReport.toPy]

/-- okdmr/kaitai/hytera/location_protocol.ksy:163-167 against `Dmr.Hytera.LocationProtocol.TriggeredReportStopRequest`. -/
@[ksy ↓] theorem LocationProtocol_TriggeredReportStopRequest_conforms (n : Nat) (sc : Scope) :
    parse (n + 2) sc Hytera.LocationProtocol.TriggeredReportStopRequest = (fun x => view (Dmr.Hytera.LocationProtocol.TriggeredReportStopRequest.toPy x)) <$> Dmr.Hytera.LocationProtocol.TriggeredReportStopRequest.read := by
  rw [parse_succ]
  ksy_simp [Dmr.Hytera.LocationProtocol.TriggeredReportStopRequest.read, Dmr.Hytera.LocationProtocol.TriggeredReportStopRequest.toPy]

/-- okdmr/kaitai/hytera/location_protocol.ksy:169-176 against `Dmr.Hytera.LocationProtocol.TriggeredReportStopAnswer`. -/
@[ksy ↓] theorem LocationProtocol_TriggeredReportStopAnswer_conforms (n : Nat) (sc : Scope) :
    parse (n + 2) sc Hytera.LocationProtocol.TriggeredReportStopAnswer = (fun x => view (Dmr.Hytera.LocationProtocol.TriggeredReportStopAnswer.toPy x)) <$> Dmr.Hytera.LocationProtocol.TriggeredReportStopAnswer.read := by
  rw [parse_succ]
  ksy_simp [Dmr.Hytera.LocationProtocol.TriggeredReportStopAnswer.read, Dmr.Hytera.LocationProtocol.TriggeredReportStopAnswer.toPy]

/-- okdmr/kaitai/hytera/location_protocol.ksy:178-194 against `Dmr.Hytera.LocationProtocol.ConditionReportRequest`. -/
@[ksy ↓] theorem LocationProtocol_ConditionReportRequest_conforms (n : Nat) (sc : Scope) :
    parse (n + 2) sc Hytera.LocationProtocol.ConditionReportRequest = (fun x => view (Dmr.Hytera.LocationProtocol.ConditionReportRequest.toPy x)) <$> Dmr.Hytera.LocationProtocol.ConditionReportRequest.read := by
  rw [parse_succ]
  ksy_simp [Dmr.Hytera.LocationProtocol.ConditionReportRequest.read, Dmr.Hytera.LocationProtocol.ConditionReportRequest.toPy]

/-- okdmr/kaitai/hytera/location_protocol.ksy:196-206 against `Dmr.Hytera.LocationProtocol.ConditionReportAnswer`. -/
@[ksy ↓] theorem LocationProtocol_ConditionReportAnswer_conforms (n : Nat) (sc : Scope) :
    parse (n + 2) sc Hytera.LocationProtocol.ConditionReportAnswer = (fun x => view (Dmr.Hytera.LocationProtocol.ConditionReportAnswer.toPy x)) <$> Dmr.Hytera.LocationProtocol.ConditionReportAnswer.read := by
  rw [parse_succ]
  ksy_simp [Dmr.Hytera.LocationProtocol.ConditionReportAnswer.read, Dmr.Hytera.LocationProtocol.ConditionReportAnswer.toPy]

/-- okdmr/kaitai/hytera/location_protocol.ksy:208-214 against `Dmr.Hytera.LocationProtocol.ConditionReport`. -/
@[ksy ↓] theorem LocationProtocol_ConditionReport_conforms (n : Nat) (sc : Scope) :
    parse (n + 2) sc Hytera.LocationProtocol.ConditionReport = (fun x => view (Dmr.Hytera.LocationProtocol.ConditionReport.toPy x)) <$> Dmr.Hytera.LocationProtocol.ConditionReport.read := by
  rw [parse_succ]
  ksy_simp [Dmr.Hytera.LocationProtocol.ConditionReport.read, Dmr.Hytera.LocationProtocol.ConditionReport.toPy]

/-- okdmr/kaitai/hytera/location_protocol.ksy:216-228 against `Dmr.Hytera.LocationProtocol.ConditionReportWithRssi`. -/
@[ksy ↓] theorem LocationProtocol_ConditionReportWithRssi_conforms (n : Nat) (sc : Scope) :
    parse (n + 2) sc Hytera.LocationProtocol.ConditionReportWithRssi = (fun x => view (Dmr.Hytera.LocationProtocol.ConditionReportWithRssi.toPy x)) <$> Dmr.Hytera.LocationProtocol.ConditionReportWithRssi.read := by
  rw [parse_succ]
  ksy_simp [Dmr.Hytera.LocationProtocol.ConditionReportWithRssi.read, Dmr.Hytera.LocationProtocol.ConditionReportWithRssi.toPy]

/-- okdmr/kaitai/hytera/location_protocol.ksy:242-256 against `Dmr.Hytera.LocationProtocol.QuickGpsPayload`. -/
@[ksy ↓] theorem LocationProtocol_QuickGpsPayload_conforms (n : Nat) (sc : Scope) :
    parse (n + 2) sc Hytera.LocationProtocol.QuickGpsPayload = (fun x => view (Dmr.Hytera.LocationProtocol.QuickGpsPayload.toPy x)) <$> Dmr.Hytera.LocationProtocol.QuickGpsPayload.read := by
  rw [parse_succ]
  ksy_simp [Dmr.Hytera.LocationProtocol.QuickGpsPayload.read, Dmr.Hytera.LocationProtocol.QuickGpsPayload.toPy]

/-- okdmr/kaitai/hytera/location_protocol.ksy:230-240 against `Dmr.Hytera.LocationProtocol.ConditionQuickGpsRequest`. -/
@[ksy ↓] theorem LocationProtocol_ConditionQuickGpsRequest_conforms (n : Nat) (sc : Scope) :
    parse (n + 3) sc Hytera.LocationProtocol.ConditionQuickGpsRequest = (fun x => view (Dmr.Hytera.LocationProtocol.ConditionQuickGpsRequest.toPy x)) <$> Dmr.Hytera.LocationProtocol.ConditionQuickGpsRequest.read := by
  rw [parse_succ]
  ksy_simp [Dmr.Hytera.LocationProtocol.ConditionQuickGpsRequest.read, Dmr.Hytera.LocationProtocol.ConditionQuickGpsRequest.toPy]

/-- okdmr/kaitai/hytera/location_protocol.ksy:258-268 against `Dmr.Hytera.LocationProtocol.ConditionQuickGpsAnswer`. -/
@[ksy ↓] theorem LocationProtocol_ConditionQuickGpsAnswer_conforms (n : Nat) (sc : Scope) :
    parse (n + 2) sc Hytera.LocationProtocol.ConditionQuickGpsAnswer = (fun x => view (Dmr.Hytera.LocationProtocol.ConditionQuickGpsAnswer.toPy x)) <$> Dmr.Hytera.LocationProtocol.ConditionQuickGpsAnswer.read := by
  rw [parse_succ]
  ksy_simp [Dmr.Hytera.LocationProtocol.ConditionQuickGpsAnswer.read, Dmr.Hytera.LocationProtocol.ConditionQuickGpsAnswer.toPy]

/-- okdmr/kaitai/hytera/location_protocol.ksy:1-273 against `Dmr.Hytera.LocationProtocol`. -/
@[ksy ↓] theorem LocationProtocol_conforms (n : Nat) (sc : Scope) :
    parse (n + 4) sc Hytera.LocationProtocol = (fun x => view (Dmr.Hytera.LocationProtocol.toPy x)) <$> Dmr.Hytera.LocationProtocol.read := by
  rw [parse_succ]
  ksy_simp [Dmr.Hytera.LocationProtocol.read, Dmr.Hytera.LocationProtocol.toPy]
  ksy_switch Dmr.Hytera.LocationProtocol.readData Dmr.Hytera.LocationProtocol.DataUnion.toPy Dmr.Hytera.LocationProtocol.LpSpecificTypes

end Dmr.Ksy.Hytera
