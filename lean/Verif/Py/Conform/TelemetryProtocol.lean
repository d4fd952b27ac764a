import Verif.Py.Base
import Verif.Py.Conform.RadioIp
/-
Generated by tools/mkpyconform.py: the source file of `Hytera.TelemetryProtocol` against the model of its classes.
-/

set_option autoImplicit false
set_option linter.unusedSimpArgs false
set_option maxHeartbeats 1000000

namespace Dmr.Py.ConformHytera

theorem TelemetryProtocol.file : files[16]? = some Source.Hytera.TelemetryProtocol.file := rfl

theorem enum_TelemetryProtocol_ServiceTypes : library.enums.find? (fun e => e.qualified == "Hytera.TelemetryProtocol.ServiceTypes") = some Source.Hytera.TelemetryProtocol.ServiceTypes := enum_at 16 _ TelemetryProtocol.file 0 Source.Hytera.TelemetryProtocol.ServiceTypes rfl

@[py] theorem resolve_TelemetryProtocol_ServiceTypes (v : Nat) : resolve library "Hytera.TelemetryProtocol.ServiceTypes" (.pv (.int (v : Int))) =
    pure (.pv (EnumVal.toPy "ServiceTypes" (resolveEnum Dmr.Hytera.TelemetryProtocol.ServiceTypes v))) := run_resolve Source.Hytera.TelemetryProtocol.ServiceTypes enum_TelemetryProtocol_ServiceTypes (by decide) v

theorem enum_TelemetryProtocol_ResultTypes : library.enums.find? (fun e => e.qualified == "Hytera.TelemetryProtocol.ResultTypes") = some Source.Hytera.TelemetryProtocol.ResultTypes := enum_at 16 _ TelemetryProtocol.file 1 Source.Hytera.TelemetryProtocol.ResultTypes rfl

@[py] theorem resolve_TelemetryProtocol_ResultTypes (v : Nat) : resolve library "Hytera.TelemetryProtocol.ResultTypes" (.pv (.int (v : Int))) =
    pure (.pv (EnumVal.toPy "ResultTypes" (resolveEnum Dmr.Hytera.TelemetryProtocol.ResultTypes v))) := run_resolve Source.Hytera.TelemetryProtocol.ResultTypes enum_TelemetryProtocol_ResultTypes (by decide) v

theorem enum_TelemetryProtocol_CallTypes : library.enums.find? (fun e => e.qualified == "Hytera.TelemetryProtocol.CallTypes") = some Source.Hytera.TelemetryProtocol.CallTypes := enum_at 16 _ TelemetryProtocol.file 2 Source.Hytera.TelemetryProtocol.CallTypes rfl

@[py] theorem resolve_TelemetryProtocol_CallTypes (v : Nat) : resolve library "Hytera.TelemetryProtocol.CallTypes" (.pv (.int (v : Int))) =
    pure (.pv (EnumVal.toPy "CallTypes" (resolveEnum Dmr.Hytera.TelemetryProtocol.CallTypes v))) := run_resolve Source.Hytera.TelemetryProtocol.CallTypes enum_TelemetryProtocol_CallTypes (by decide) v

theorem enum_TelemetryProtocol_OperationTypes : library.enums.find? (fun e => e.qualified == "Hytera.TelemetryProtocol.OperationTypes") = some Source.Hytera.TelemetryProtocol.OperationTypes := enum_at 16 _ TelemetryProtocol.file 3 Source.Hytera.TelemetryProtocol.OperationTypes rfl

@[py] theorem resolve_TelemetryProtocol_OperationTypes (v : Nat) : resolve library "Hytera.TelemetryProtocol.OperationTypes" (.pv (.int (v : Int))) =
    pure (.pv (EnumVal.toPy "OperationTypes" (resolveEnum Dmr.Hytera.TelemetryProtocol.OperationTypes v))) := run_resolve Source.Hytera.TelemetryProtocol.OperationTypes enum_TelemetryProtocol_OperationTypes (by decide) v

theorem enum_TelemetryProtocol_PcFlagTypes : library.enums.find? (fun e => e.qualified == "Hytera.TelemetryProtocol.PcFlagTypes") = some Source.Hytera.TelemetryProtocol.PcFlagTypes := enum_at 16 _ TelemetryProtocol.file 4 Source.Hytera.TelemetryProtocol.PcFlagTypes rfl

@[py] theorem resolve_TelemetryProtocol_PcFlagTypes (v : Nat) : resolve library "Hytera.TelemetryProtocol.PcFlagTypes" (.pv (.int (v : Int))) =
    pure (.pv (EnumVal.toPy "PcFlagTypes" (resolveEnum Dmr.Hytera.TelemetryProtocol.PcFlagTypes v))) := run_resolve Source.Hytera.TelemetryProtocol.PcFlagTypes enum_TelemetryProtocol_PcFlagTypes (by decide) v

theorem enum_TelemetryProtocol_ServiceSpecificTypes : library.enums.find? (fun e => e.qualified == "Hytera.TelemetryProtocol.ServiceSpecificTypes") = some Source.Hytera.TelemetryProtocol.ServiceSpecificTypes := enum_at 16 _ TelemetryProtocol.file 5 Source.Hytera.TelemetryProtocol.ServiceSpecificTypes rfl

@[py] theorem resolve_TelemetryProtocol_ServiceSpecificTypes (v : Nat) : resolve library "Hytera.TelemetryProtocol.ServiceSpecificTypes" (.pv (.int (v : Int))) =
    pure (.pv (EnumVal.toPy "ServiceSpecificTypes" (resolveEnum Dmr.Hytera.TelemetryProtocol.ServiceSpecificTypes v))) := run_resolve Source.Hytera.TelemetryProtocol.ServiceSpecificTypes enum_TelemetryProtocol_ServiceSpecificTypes (by decide) v

@[py] theorem member_TelemetryProtocol_ServiceSpecificTypes_extended_status_report : member library "Hytera.TelemetryProtocol.ServiceSpecificTypes" "extended_status_report" = pure (.pv (.enum "ServiceSpecificTypes" 41090)) := member_of enum_TelemetryProtocol_ServiceSpecificTypes rfl

@[py] theorem same_TelemetryProtocol_ServiceSpecificTypes_extended_status_report (on : EnumVal Dmr.Hytera.TelemetryProtocol.ServiceSpecificTypes) :
    same (.pv (EnumVal.toPy "ServiceSpecificTypes" on)) (.pv (.enum "ServiceSpecificTypes" 41090)) = decide (on = .known .extended_status_report) :=
  same_known _ _ Dmr.Hytera.TelemetryProtocol.ServiceSpecificTypes.extended_status_report

@[py] theorem member_TelemetryProtocol_ServiceSpecificTypes_remote_control_answer : member library "Hytera.TelemetryProtocol.ServiceSpecificTypes" "remote_control_answer" = pure (.pv (.enum "ServiceSpecificTypes" 45185)) := member_of enum_TelemetryProtocol_ServiceSpecificTypes rfl

@[py] theorem same_TelemetryProtocol_ServiceSpecificTypes_remote_control_answer (on : EnumVal Dmr.Hytera.TelemetryProtocol.ServiceSpecificTypes) :
    same (.pv (EnumVal.toPy "ServiceSpecificTypes" on)) (.pv (.enum "ServiceSpecificTypes" 45185)) = decide (on = .known .remote_control_answer) :=
  same_known _ _ Dmr.Hytera.TelemetryProtocol.ServiceSpecificTypes.remote_control_answer

@[py] theorem member_TelemetryProtocol_ServiceSpecificTypes_remote_control_request : member library "Hytera.TelemetryProtocol.ServiceSpecificTypes" "remote_control_request" = pure (.pv (.enum "ServiceSpecificTypes" 45057)) := member_of enum_TelemetryProtocol_ServiceSpecificTypes rfl

@[py] theorem same_TelemetryProtocol_ServiceSpecificTypes_remote_control_request (on : EnumVal Dmr.Hytera.TelemetryProtocol.ServiceSpecificTypes) :
    same (.pv (EnumVal.toPy "ServiceSpecificTypes" on)) (.pv (.enum "ServiceSpecificTypes" 45057)) = decide (on = .known .remote_control_request) :=
  same_known _ _ Dmr.Hytera.TelemetryProtocol.ServiceSpecificTypes.remote_control_request

@[py] theorem member_TelemetryProtocol_ServiceSpecificTypes_standard_status_report : member library "Hytera.TelemetryProtocol.ServiceSpecificTypes" "standard_status_report" = pure (.pv (.enum "ServiceSpecificTypes" 41089)) := member_of enum_TelemetryProtocol_ServiceSpecificTypes rfl

@[py] theorem same_TelemetryProtocol_ServiceSpecificTypes_standard_status_report (on : EnumVal Dmr.Hytera.TelemetryProtocol.ServiceSpecificTypes) :
    same (.pv (EnumVal.toPy "ServiceSpecificTypes" on)) (.pv (.enum "ServiceSpecificTypes" 41089)) = decide (on = .known .standard_status_report) :=
  same_known _ _ Dmr.Hytera.TelemetryProtocol.ServiceSpecificTypes.standard_status_report

@[py] theorem member_TelemetryProtocol_ServiceSpecificTypes_standard_status_request : member library "Hytera.TelemetryProtocol.ServiceSpecificTypes" "standard_status_request" = pure (.pv (.enum "ServiceSpecificTypes" 40961)) := member_of enum_TelemetryProtocol_ServiceSpecificTypes rfl

@[py] theorem same_TelemetryProtocol_ServiceSpecificTypes_standard_status_request (on : EnumVal Dmr.Hytera.TelemetryProtocol.ServiceSpecificTypes) :
    same (.pv (EnumVal.toPy "ServiceSpecificTypes" on)) (.pv (.enum "ServiceSpecificTypes" 40961)) = decide (on = .known .standard_status_request) :=
  same_known _ _ Dmr.Hytera.TelemetryProtocol.ServiceSpecificTypes.standard_status_request

theorem enum_TelemetryProtocol_ControlResultTypes : library.enums.find? (fun e => e.qualified == "Hytera.TelemetryProtocol.ControlResultTypes") = some Source.Hytera.TelemetryProtocol.ControlResultTypes := enum_at 16 _ TelemetryProtocol.file 6 Source.Hytera.TelemetryProtocol.ControlResultTypes rfl

@[py] theorem resolve_TelemetryProtocol_ControlResultTypes (v : Nat) : resolve library "Hytera.TelemetryProtocol.ControlResultTypes" (.pv (.int (v : Int))) =
    pure (.pv (EnumVal.toPy "ControlResultTypes" (resolveEnum Dmr.Hytera.TelemetryProtocol.ControlResultTypes v))) := run_resolve Source.Hytera.TelemetryProtocol.ControlResultTypes enum_TelemetryProtocol_ControlResultTypes (by decide) v

theorem TelemetryProtocol_StandardStatusReport_class : library.class "Hytera.TelemetryProtocol.StandardStatusReport" = some Source.Hytera.TelemetryProtocol.StandardStatusReport := class_at 16 _ TelemetryProtocol.file 0 Source.Hytera.TelemetryProtocol.StandardStatusReport rfl

/-- okdmr/kaitai/hytera/telemetry_protocol.py:87-106 against `Dmr.Hytera.TelemetryProtocol.StandardStatusReport`. -/
@[py] theorem TelemetryProtocol_StandardStatusReport_builds (n : Nat) (H : List Obj) (S : List Stream) (k : Nat) (hk : k < S.length) (s : Stream)
    (parent root : Val) : ((calls library (n + 5)).construct "Hytera.TelemetryProtocol.StandardStatusReport" [.io k, parent, root]).run ⟨H, S.set k s⟩ =
      after Dmr.Hytera.TelemetryProtocol.StandardStatusReport.read s (fun e s' => .raise e ⟨H, S.set k s'⟩)
        (built Dmr.Hytera.TelemetryProtocol.StandardStatusReport.toPy k parent root H S) := by
  rw [construct_eq library _ "Hytera.TelemetryProtocol.StandardStatusReport" _ _ TelemetryProtocol_StandardStatusReport_class rfl rfl]
  py_run [onStream_set _ _ _ _ hk, hk, Dmr.Hytera.TelemetryProtocol.StandardStatusReport.read, Dmr.Hytera.TelemetryProtocol.StandardStatusReport.toPy]

@[py] theorem TelemetryProtocol_StandardStatusReport_place (io parent root : Val) (b : Nat) (x : Dmr.Hytera.TelemetryProtocol.StandardStatusReport) :
    place io parent root b x.toPy = (.obj b, placeObj io parent root b x.toPy) :=
  place_part _ _ _ _ _ _ (by decide)

theorem TelemetryProtocol_VioExtendedStatus_class : library.class "Hytera.TelemetryProtocol.VioExtendedStatus" = some Source.Hytera.TelemetryProtocol.VioExtendedStatus := class_at 16 _ TelemetryProtocol.file 1 Source.Hytera.TelemetryProtocol.VioExtendedStatus rfl

/-- okdmr/kaitai/hytera/telemetry_protocol.py:108-120 against `Dmr.Hytera.TelemetryProtocol.VioExtendedStatus`. -/
@[py] theorem TelemetryProtocol_VioExtendedStatus_builds (n : Nat) (H : List Obj) (S : List Stream) (k : Nat) (hk : k < S.length) (s : Stream)
    (parent root : Val) : ((calls library (n + 3)).construct "Hytera.TelemetryProtocol.VioExtendedStatus" [.io k, parent, root]).run ⟨H, S.set k s⟩ =
      after Dmr.Hytera.TelemetryProtocol.VioExtendedStatus.read s (fun e s' => .raise e ⟨H, S.set k s'⟩)
        (built Dmr.Hytera.TelemetryProtocol.VioExtendedStatus.toPy k parent root H S) := by
  rw [construct_eq library _ "Hytera.TelemetryProtocol.VioExtendedStatus" _ _ TelemetryProtocol_VioExtendedStatus_class rfl rfl]
  py_run [onStream_set _ _ _ _ hk, hk, Dmr.Hytera.TelemetryProtocol.VioExtendedStatus.read, Dmr.Hytera.TelemetryProtocol.VioExtendedStatus.toPy]

@[py] theorem TelemetryProtocol_VioExtendedStatus_place (io parent root : Val) (b : Nat) (x : Dmr.Hytera.TelemetryProtocol.VioExtendedStatus) :
    place io parent root b x.toPy = (.obj b, placeObj io parent root b x.toPy) :=
  place_part _ _ _ _ _ _ (by decide)

theorem TelemetryProtocol_RemoteControlAnswer_class : library.class "Hytera.TelemetryProtocol.RemoteControlAnswer" = some Source.Hytera.TelemetryProtocol.RemoteControlAnswer := class_at 16 _ TelemetryProtocol.file 2 Source.Hytera.TelemetryProtocol.RemoteControlAnswer rfl

/-- okdmr/kaitai/hytera/telemetry_protocol.py:122-141 against `Dmr.Hytera.TelemetryProtocol.RemoteControlAnswer`. -/
@[py] theorem TelemetryProtocol_RemoteControlAnswer_builds (n : Nat) (H : List Obj) (S : List Stream) (k : Nat) (hk : k < S.length) (s : Stream)
    (parent root : Val) : ((calls library (n + 5)).construct "Hytera.TelemetryProtocol.RemoteControlAnswer" [.io k, parent, root]).run ⟨H, S.set k s⟩ =
      after Dmr.Hytera.TelemetryProtocol.RemoteControlAnswer.read s (fun e s' => .raise e ⟨H, S.set k s'⟩)
        (built Dmr.Hytera.TelemetryProtocol.RemoteControlAnswer.toPy k parent root H S) := by
  rw [construct_eq library _ "Hytera.TelemetryProtocol.RemoteControlAnswer" _ _ TelemetryProtocol_RemoteControlAnswer_class rfl rfl]
  py_run [onStream_set _ _ _ _ hk, hk, Dmr.Hytera.TelemetryProtocol.RemoteControlAnswer.read, Dmr.Hytera.TelemetryProtocol.RemoteControlAnswer.toPy]

@[py] theorem TelemetryProtocol_RemoteControlAnswer_place (io parent root : Val) (b : Nat) (x : Dmr.Hytera.TelemetryProtocol.RemoteControlAnswer) :
    place io parent root b x.toPy = (.obj b, placeObj io parent root b x.toPy) :=
  place_part _ _ _ _ _ _ (by decide)

theorem TelemetryProtocol_RemoteControlRequest_class : library.class "Hytera.TelemetryProtocol.RemoteControlRequest" = some Source.Hytera.TelemetryProtocol.RemoteControlRequest := class_at 16 _ TelemetryProtocol.file 3 Source.Hytera.TelemetryProtocol.RemoteControlRequest rfl

/-- okdmr/kaitai/hytera/telemetry_protocol.py:143-162 against `Dmr.Hytera.TelemetryProtocol.RemoteControlRequest`. -/
@[py] theorem TelemetryProtocol_RemoteControlRequest_builds (n : Nat) (H : List Obj) (S : List Stream) (k : Nat) (hk : k < S.length) (s : Stream)
    (parent root : Val) : ((calls library (n + 5)).construct "Hytera.TelemetryProtocol.RemoteControlRequest" [.io k, parent, root]).run ⟨H, S.set k s⟩ =
      after Dmr.Hytera.TelemetryProtocol.RemoteControlRequest.read s (fun e s' => .raise e ⟨H, S.set k s'⟩)
        (built Dmr.Hytera.TelemetryProtocol.RemoteControlRequest.toPy k parent root H S) := by
  rw [construct_eq library _ "Hytera.TelemetryProtocol.RemoteControlRequest" _ _ TelemetryProtocol_RemoteControlRequest_class rfl rfl]
  py_run [onStream_set _ _ _ _ hk, hk, Dmr.Hytera.TelemetryProtocol.RemoteControlRequest.read, Dmr.Hytera.TelemetryProtocol.RemoteControlRequest.toPy]

@[py] theorem TelemetryProtocol_RemoteControlRequest_place (io parent root : Val) (b : Nat) (x : Dmr.Hytera.TelemetryProtocol.RemoteControlRequest) :
    place io parent root b x.toPy = (.obj b, placeObj io parent root b x.toPy) :=
  place_part _ _ _ _ _ _ (by decide)

theorem TelemetryProtocol_ExtendedStatusReport_class : library.class "Hytera.TelemetryProtocol.ExtendedStatusReport" = some Source.Hytera.TelemetryProtocol.ExtendedStatusReport := class_at 16 _ TelemetryProtocol.file 4 Source.Hytera.TelemetryProtocol.ExtendedStatusReport rfl

/-- okdmr/kaitai/hytera/telemetry_protocol.py:164-183 against `Dmr.Hytera.TelemetryProtocol.ExtendedStatusReport`. -/
@[py] theorem TelemetryProtocol_ExtendedStatusReport_builds (n : Nat) (H : List Obj) (S : List Stream) (k : Nat) (hk : k < S.length) (s : Stream)
    (parent root : Val) : ((calls library (n + 5)).construct "Hytera.TelemetryProtocol.ExtendedStatusReport" [.io k, parent, root]).run ⟨H, S.set k s⟩ =
      after Dmr.Hytera.TelemetryProtocol.ExtendedStatusReport.read s (fun e s' => .raise e ⟨H, S.set k s'⟩)
        (built Dmr.Hytera.TelemetryProtocol.ExtendedStatusReport.toPy k parent root H S) := by
  rw [construct_eq library _ "Hytera.TelemetryProtocol.ExtendedStatusReport" _ _ TelemetryProtocol_ExtendedStatusReport_class rfl rfl]
  py_run [onStream_set _ _ _ _ hk, hk, Dmr.Hytera.TelemetryProtocol.ExtendedStatusReport.read, Dmr.Hytera.TelemetryProtocol.ExtendedStatusReport.toPy]

@[py] theorem TelemetryProtocol_ExtendedStatusReport_place (io parent root : Val) (b : Nat) (x : Dmr.Hytera.TelemetryProtocol.ExtendedStatusReport) :
    place io parent root b x.toPy = (.obj b, placeObj io parent root b x.toPy) :=
  place_part _ _ _ _ _ _ (by decide)

theorem TelemetryProtocol_StandardStatusRequest_class : library.class "Hytera.TelemetryProtocol.StandardStatusRequest" = some Source.Hytera.TelemetryProtocol.StandardStatusRequest := class_at 16 _ TelemetryProtocol.file 5 Source.Hytera.TelemetryProtocol.StandardStatusRequest rfl

/-- okdmr/kaitai/hytera/telemetry_protocol.py:185-201 against `Dmr.Hytera.TelemetryProtocol.StandardStatusRequest`. -/
@[py] theorem TelemetryProtocol_StandardStatusRequest_builds (n : Nat) (H : List Obj) (S : List Stream) (k : Nat) (hk : k < S.length) (s : Stream)
    (parent root : Val) : ((calls library (n + 5)).construct "Hytera.TelemetryProtocol.StandardStatusRequest" [.io k, parent, root]).run ⟨H, S.set k s⟩ =
      after Dmr.Hytera.TelemetryProtocol.StandardStatusRequest.read s (fun e s' => .raise e ⟨H, S.set k s'⟩)
        (built Dmr.Hytera.TelemetryProtocol.StandardStatusRequest.toPy k parent root H S) := by
  rw [construct_eq library _ "Hytera.TelemetryProtocol.StandardStatusRequest" _ _ TelemetryProtocol_StandardStatusRequest_class rfl rfl]
  py_run [onStream_set _ _ _ _ hk, hk, Dmr.Hytera.TelemetryProtocol.StandardStatusRequest.read, Dmr.Hytera.TelemetryProtocol.StandardStatusRequest.toPy]

@[py] theorem TelemetryProtocol_StandardStatusRequest_place (io parent root : Val) (b : Nat) (x : Dmr.Hytera.TelemetryProtocol.StandardStatusRequest) :
    place io parent root b x.toPy = (.obj b, placeObj io parent root b x.toPy) :=
  place_part _ _ _ _ _ _ (by decide)

theorem TelemetryProtocol_class : library.class "Hytera.TelemetryProtocol" = some Source.Hytera.TelemetryProtocol := class_at 16 _ TelemetryProtocol.file 6 Source.Hytera.TelemetryProtocol rfl

@[py] theorem TelemetryProtocol_property (x : String) : library.property "Hytera.TelemetryProtocol" x = Source.Hytera.TelemetryProtocol.properties.lookup x :=
  property_of _ _ _ _ TelemetryProtocol_class

/-- okdmr/kaitai/hytera/telemetry_protocol.py:17-214 against `Dmr.Hytera.TelemetryProtocol`. -/
@[py] theorem TelemetryProtocol_builds (n : Nat) (H : List Obj) (S : List Stream) (k : Nat) (hk : k < S.length) (s : Stream)
    (parent root : Val) : ((calls library (n + 7)).construct "Hytera.TelemetryProtocol" [.io k, parent, root]).run ⟨H, S.set k s⟩ =
      after Dmr.Hytera.TelemetryProtocol.read s (fun e s' => .raise e ⟨H, S.set k s'⟩)
        (built Dmr.Hytera.TelemetryProtocol.toPy k parent root H S) := by
  rw [construct_eq library _ "Hytera.TelemetryProtocol" _ _ TelemetryProtocol_class rfl rfl]
  py_run [onStream_set _ _ _ _ hk, hk, Dmr.Hytera.TelemetryProtocol.read, Dmr.Hytera.TelemetryProtocol.toPy, Dmr.Hytera.TelemetryProtocol.computeSpecificService, Dmr.Hytera.TelemetryProtocol.readData, Dmr.Hytera.TelemetryProtocol.DataUnion.toPy, Source.Hytera.TelemetryProtocol]

@[py] theorem TelemetryProtocol_short (n k : Nat) : (calls library (n + 7)).construct "Hytera.TelemetryProtocol" [.io k] =
    (calls library (n + 7)).construct "Hytera.TelemetryProtocol" [.io k, .pv .none, .pv .none] := construct_short _ _ _ _ TelemetryProtocol_class rfl _

@[py] theorem TelemetryProtocol_place (io parent root : Val) (b : Nat) (x : Dmr.Hytera.TelemetryProtocol) :
    place io parent root b x.toPy = (.obj b, placeObj io (.pv .none) (.obj b) b x.toPy) :=
  place_file _ _ _ _ _ _ (by decide)

end Dmr.Py.ConformHytera
