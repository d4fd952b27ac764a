import Verif.Ksy.Conform.Base
import Verif.Ksy.Conform.RadioIp
/-
Generated by tools/mkconform.py: the schema of `TelemetryProtocol` against the model of the Python classes.
-/

set_option linter.unusedSimpArgs false
set_option maxHeartbeats 1000000

namespace Dmr.Ksy.Hytera

@[ksy] theorem resolve_TelemetryProtocol_ServiceTypes (v : Nat) : Hytera.TelemetryProtocol.ServiceTypes.resolve v = EnumVal.toPy "ServiceTypes" (resolveEnum Dmr.Hytera.TelemetryProtocol.ServiceTypes v) :=
  resolve_eq _ (by decide) v

@[ksy ↓] theorem read_TelemetryProtocol_ServiceTypes_u1 (ev sub) : readTy ev sub (.primEnum .u1 Hytera.TelemetryProtocol.ServiceTypes) =
    asEnum Dmr.Hytera.TelemetryProtocol.ServiceTypes readU1 >>= fun e => pure (some (EnumVal.toPy "ServiceTypes" e)) :=
  enum_prim resolve_TelemetryProtocol_ServiceTypes .u1 readU1 rfl ev sub

@[ksy] theorem resolve_TelemetryProtocol_ServiceSpecificTypes (v : Nat) : Hytera.TelemetryProtocol.ServiceSpecificTypes.resolve v = EnumVal.toPy "ServiceSpecificTypes" (resolveEnum Dmr.Hytera.TelemetryProtocol.ServiceSpecificTypes v) :=
  resolve_eq _ (by decide) v

@[ksy ↓] theorem read_TelemetryProtocol_ServiceSpecificTypes_u2be (ev sub) : readTy ev sub (.primEnum .u2be Hytera.TelemetryProtocol.ServiceSpecificTypes) =
    asEnum Dmr.Hytera.TelemetryProtocol.ServiceSpecificTypes readU2be >>= fun e => pure (some (EnumVal.toPy "ServiceSpecificTypes" e)) :=
  enum_prim resolve_TelemetryProtocol_ServiceSpecificTypes .u2be readU2be rfl ev sub

@[ksy] theorem member_TelemetryProtocol_ServiceSpecificTypes_extended_status_report : Hytera.TelemetryProtocol.ServiceSpecificTypes.member "extended_status_report" = pure (.enum "ServiceSpecificTypes" 41090) := rfl

@[ksy] theorem same_TelemetryProtocol_ServiceSpecificTypes_extended_status_report (on : EnumVal Dmr.Hytera.TelemetryProtocol.ServiceSpecificTypes) :
    same (EnumVal.toPy "ServiceSpecificTypes" on) (.enum "ServiceSpecificTypes" 41090) = decide (on = .known .extended_status_report) :=
  same_known _ _ Dmr.Hytera.TelemetryProtocol.ServiceSpecificTypes.extended_status_report

@[ksy] theorem member_TelemetryProtocol_ServiceSpecificTypes_remote_control_answer : Hytera.TelemetryProtocol.ServiceSpecificTypes.member "remote_control_answer" = pure (.enum "ServiceSpecificTypes" 45185) := rfl

@[ksy] theorem same_TelemetryProtocol_ServiceSpecificTypes_remote_control_answer (on : EnumVal Dmr.Hytera.TelemetryProtocol.ServiceSpecificTypes) :
    same (EnumVal.toPy "ServiceSpecificTypes" on) (.enum "ServiceSpecificTypes" 45185) = decide (on = .known .remote_control_answer) :=
  same_known _ _ Dmr.Hytera.TelemetryProtocol.ServiceSpecificTypes.remote_control_answer

@[ksy] theorem member_TelemetryProtocol_ServiceSpecificTypes_remote_control_request : Hytera.TelemetryProtocol.ServiceSpecificTypes.member "remote_control_request" = pure (.enum "ServiceSpecificTypes" 45057) := rfl

@[ksy] theorem same_TelemetryProtocol_ServiceSpecificTypes_remote_control_request (on : EnumVal Dmr.Hytera.TelemetryProtocol.ServiceSpecificTypes) :
    same (EnumVal.toPy "ServiceSpecificTypes" on) (.enum "ServiceSpecificTypes" 45057) = decide (on = .known .remote_control_request) :=
  same_known _ _ Dmr.Hytera.TelemetryProtocol.ServiceSpecificTypes.remote_control_request

@[ksy] theorem member_TelemetryProtocol_ServiceSpecificTypes_standard_status_report : Hytera.TelemetryProtocol.ServiceSpecificTypes.member "standard_status_report" = pure (.enum "ServiceSpecificTypes" 41089) := rfl

@[ksy] theorem same_TelemetryProtocol_ServiceSpecificTypes_standard_status_report (on : EnumVal Dmr.Hytera.TelemetryProtocol.ServiceSpecificTypes) :
    same (EnumVal.toPy "ServiceSpecificTypes" on) (.enum "ServiceSpecificTypes" 41089) = decide (on = .known .standard_status_report) :=
  same_known _ _ Dmr.Hytera.TelemetryProtocol.ServiceSpecificTypes.standard_status_report

@[ksy] theorem member_TelemetryProtocol_ServiceSpecificTypes_standard_status_request : Hytera.TelemetryProtocol.ServiceSpecificTypes.member "standard_status_request" = pure (.enum "ServiceSpecificTypes" 40961) := rfl

@[ksy] theorem same_TelemetryProtocol_ServiceSpecificTypes_standard_status_request (on : EnumVal Dmr.Hytera.TelemetryProtocol.ServiceSpecificTypes) :
    same (EnumVal.toPy "ServiceSpecificTypes" on) (.enum "ServiceSpecificTypes" 40961) = decide (on = .known .standard_status_request) :=
  same_known _ _ Dmr.Hytera.TelemetryProtocol.ServiceSpecificTypes.standard_status_request

@[ksy] theorem resolve_TelemetryProtocol_PcFlagTypes (v : Nat) : Hytera.TelemetryProtocol.PcFlagTypes.resolve v = EnumVal.toPy "PcFlagTypes" (resolveEnum Dmr.Hytera.TelemetryProtocol.PcFlagTypes v) :=
  resolve_eq _ (by decide) v

@[ksy ↓] theorem read_TelemetryProtocol_PcFlagTypes_u1 (ev sub) : readTy ev sub (.primEnum .u1 Hytera.TelemetryProtocol.PcFlagTypes) =
    asEnum Dmr.Hytera.TelemetryProtocol.PcFlagTypes readU1 >>= fun e => pure (some (EnumVal.toPy "PcFlagTypes" e)) :=
  enum_prim resolve_TelemetryProtocol_PcFlagTypes .u1 readU1 rfl ev sub

@[ksy] theorem resolve_TelemetryProtocol_CallTypes (v : Nat) : Hytera.TelemetryProtocol.CallTypes.resolve v = EnumVal.toPy "CallTypes" (resolveEnum Dmr.Hytera.TelemetryProtocol.CallTypes v) :=
  resolve_eq _ (by decide) v

@[ksy ↓] theorem read_TelemetryProtocol_CallTypes_u1 (ev sub) : readTy ev sub (.primEnum .u1 Hytera.TelemetryProtocol.CallTypes) =
    asEnum Dmr.Hytera.TelemetryProtocol.CallTypes readU1 >>= fun e => pure (some (EnumVal.toPy "CallTypes" e)) :=
  enum_prim resolve_TelemetryProtocol_CallTypes .u1 readU1 rfl ev sub

@[ksy] theorem resolve_TelemetryProtocol_ResultTypes (v : Nat) : Hytera.TelemetryProtocol.ResultTypes.resolve v = EnumVal.toPy "ResultTypes" (resolveEnum Dmr.Hytera.TelemetryProtocol.ResultTypes v) :=
  resolve_eq _ (by decide) v

@[ksy ↓] theorem read_TelemetryProtocol_ResultTypes_u1 (ev sub) : readTy ev sub (.primEnum .u1 Hytera.TelemetryProtocol.ResultTypes) =
    asEnum Dmr.Hytera.TelemetryProtocol.ResultTypes readU1 >>= fun e => pure (some (EnumVal.toPy "ResultTypes" e)) :=
  enum_prim resolve_TelemetryProtocol_ResultTypes .u1 readU1 rfl ev sub

@[ksy] theorem resolve_TelemetryProtocol_ControlResultTypes (v : Nat) : Hytera.TelemetryProtocol.ControlResultTypes.resolve v = EnumVal.toPy "ControlResultTypes" (resolveEnum Dmr.Hytera.TelemetryProtocol.ControlResultTypes v) :=
  resolve_eq _ (by decide) v

@[ksy ↓] theorem read_TelemetryProtocol_ControlResultTypes_u1 (ev sub) : readTy ev sub (.primEnum .u1 Hytera.TelemetryProtocol.ControlResultTypes) =
    asEnum Dmr.Hytera.TelemetryProtocol.ControlResultTypes readU1 >>= fun e => pure (some (EnumVal.toPy "ControlResultTypes" e)) :=
  enum_prim resolve_TelemetryProtocol_ControlResultTypes .u1 readU1 rfl ev sub

@[ksy] theorem resolve_TelemetryProtocol_OperationTypes (v : Nat) : Hytera.TelemetryProtocol.OperationTypes.resolve v = EnumVal.toPy "OperationTypes" (resolveEnum Dmr.Hytera.TelemetryProtocol.OperationTypes v) :=
  resolve_eq _ (by decide) v

@[ksy ↓] theorem read_TelemetryProtocol_OperationTypes_u1 (ev sub) : readTy ev sub (.primEnum .u1 Hytera.TelemetryProtocol.OperationTypes) =
    asEnum Dmr.Hytera.TelemetryProtocol.OperationTypes readU1 >>= fun e => pure (some (EnumVal.toPy "OperationTypes" e)) :=
  enum_prim resolve_TelemetryProtocol_OperationTypes .u1 readU1 rfl ev sub

/-- okdmr/kaitai/hytera/telemetry_protocol.ksy:40-49 against `Dmr.Hytera.TelemetryProtocol.VioExtendedStatus`. -/
@[ksy ↓] theorem TelemetryProtocol_VioExtendedStatus_conforms (n : Nat) (sc : Scope) :
    parse (n + 1) sc Hytera.TelemetryProtocol.VioExtendedStatus = (fun x => view (Dmr.Hytera.TelemetryProtocol.VioExtendedStatus.toPy x)) <$> Dmr.Hytera.TelemetryProtocol.VioExtendedStatus.read := by
  rw [parse_succ]
  ksy_simp [Dmr.Hytera.TelemetryProtocol.VioExtendedStatus.read, Dmr.Hytera.TelemetryProtocol.VioExtendedStatus.toPy]

/-- okdmr/kaitai/hytera/telemetry_protocol.ksy:51-64 against `Dmr.Hytera.TelemetryProtocol.StandardStatusRequest`. -/
@[ksy ↓] theorem TelemetryProtocol_StandardStatusRequest_conforms (n : Nat) (sc : Scope) :
    parse (n + 2) sc Hytera.TelemetryProtocol.StandardStatusRequest = (fun x => view (Dmr.Hytera.TelemetryProtocol.StandardStatusRequest.toPy x)) <$> Dmr.Hytera.TelemetryProtocol.StandardStatusRequest.read := by
  rw [parse_succ]
  ksy_simp [Dmr.Hytera.TelemetryProtocol.StandardStatusRequest.read, Dmr.Hytera.TelemetryProtocol.StandardStatusRequest.toPy]

/-- okdmr/kaitai/hytera/telemetry_protocol.ksy:66-83 against `Dmr.Hytera.TelemetryProtocol.StandardStatusReport`. -/
@[ksy ↓] theorem TelemetryProtocol_StandardStatusReport_conforms (n : Nat) (sc : Scope) :
    parse (n + 2) sc Hytera.TelemetryProtocol.StandardStatusReport = (fun x => view (Dmr.Hytera.TelemetryProtocol.StandardStatusReport.toPy x)) <$> Dmr.Hytera.TelemetryProtocol.StandardStatusReport.read := by
  rw [parse_succ]
  ksy_simp [Dmr.Hytera.TelemetryProtocol.StandardStatusReport.read, Dmr.Hytera.TelemetryProtocol.StandardStatusReport.toPy]

/-- okdmr/kaitai/hytera/telemetry_protocol.ksy:85-101 against `Dmr.Hytera.TelemetryProtocol.ExtendedStatusReport`. -/
@[ksy ↓] theorem TelemetryProtocol_ExtendedStatusReport_conforms (n : Nat) (sc : Scope) :
    parse (n + 2) sc Hytera.TelemetryProtocol.ExtendedStatusReport = (fun x => view (Dmr.Hytera.TelemetryProtocol.ExtendedStatusReport.toPy x)) <$> Dmr.Hytera.TelemetryProtocol.ExtendedStatusReport.read := by
  rw [parse_succ]
  ksy_simp [Dmr.Hytera.TelemetryProtocol.ExtendedStatusReport.read, Dmr.Hytera.TelemetryProtocol.ExtendedStatusReport.toPy]

/-- okdmr/kaitai/hytera/telemetry_protocol.ksy:103-120 against `Dmr.Hytera.TelemetryProtocol.RemoteControlRequest`. -/
@[ksy ↓] theorem TelemetryProtocol_RemoteControlRequest_conforms (n : Nat) (sc : Scope) :
    parse (n + 2) sc Hytera.TelemetryProtocol.RemoteControlRequest = (fun x => view (Dmr.Hytera.TelemetryProtocol.RemoteControlRequest.toPy x)) <$> Dmr.Hytera.TelemetryProtocol.RemoteControlRequest.read := by
  rw [parse_succ]
  ksy_simp [Dmr.Hytera.TelemetryProtocol.RemoteControlRequest.read, Dmr.Hytera.TelemetryProtocol.RemoteControlRequest.toPy]

/-- okdmr/kaitai/hytera/telemetry_protocol.ksy:122-139 against `Dmr.Hytera.TelemetryProtocol.RemoteControlAnswer`. -/
@[ksy ↓] theorem TelemetryProtocol_RemoteControlAnswer_conforms (n : Nat) (sc : Scope) :
    parse (n + 2) sc Hytera.TelemetryProtocol.RemoteControlAnswer = (fun x => view (Dmr.Hytera.TelemetryProtocol.RemoteControlAnswer.toPy x)) <$> Dmr.Hytera.TelemetryProtocol.RemoteControlAnswer.read := by
  rw [parse_succ]
  ksy_simp [Dmr.Hytera.TelemetryProtocol.RemoteControlAnswer.read, Dmr.Hytera.TelemetryProtocol.RemoteControlAnswer.toPy]

/-- okdmr/kaitai/hytera/telemetry_protocol.ksy instance `specific_service` against the property of
`Dmr.Hytera.TelemetryProtocol` on its first access. -/
@[ksy ↓] theorem TelemetryProtocol_specific_service (n : Nat) (attrs : List (String × PyVal)) (root : Frame) :
    inst (n + 1) ⟨Hytera.TelemetryProtocol, attrs⟩ root "specific_service" =
      EnumVal.toPy "ServiceSpecificTypes" <$> Dmr.Hytera.TelemetryProtocol.computeSpecificService := by
  rw [inst_at _ _ _ _ _ _ rfl]
  ksy_simp [Dmr.Hytera.TelemetryProtocol.computeSpecificService]

/-- okdmr/kaitai/hytera/telemetry_protocol.ksy against `Dmr.Hytera.TelemetryProtocol`. -/
@[ksy ↓] theorem TelemetryProtocol_conforms (n : Nat) (sc : Scope) :
    parse (n + 3) sc Hytera.TelemetryProtocol =
      (fun x => view (Dmr.Hytera.TelemetryProtocol.toPy x)) <$> Dmr.Hytera.TelemetryProtocol.read := by
  rw [parse_succ]
  ksy_simp [Dmr.Hytera.TelemetryProtocol.read, Dmr.Hytera.TelemetryProtocol.toPy]
  ksy_switch Dmr.Hytera.TelemetryProtocol.readData Dmr.Hytera.TelemetryProtocol.DataUnion.toPy Dmr.Hytera.TelemetryProtocol.ServiceSpecificTypes

end Dmr.Ksy.Hytera
