import Verif.Props.Prettyprint
/-
Generated by tools/mkpyview.py. Property C45 for every class of the library.
-/

namespace Dmr.Tools

theorem noDictIn_iff : ∀ l, noDictIn l ↔ ∀ v ∈ l, noDict v
  | [] => by simp [noDictIn]
  | v :: vs => by simp [noDictIn, noDictIn_iff vs]

theorem noDictInValues_append : ∀ l l', noDictInValues (l ++ l') ↔ noDictInValues l ∧ noDictInValues l'
  | [], l' => by simp [noDictInValues]
  | (_, v) :: vs, l' => by simp [noDictInValues, noDictInValues_append vs, and_assoc]

theorem noDict_object (cls : String) (l : List (List (String × PyVal))) :
    noDict (.object cls l) ↔ noDictInValues l.flatten := by
  simp [PyVal.object, noDict, noDictInValues]

theorem noDict_flatten_cons (a : List (String × PyVal)) (l : List (List (String × PyVal))) :
    noDictInValues (a :: l).flatten ↔ noDictInValues a ∧ noDictInValues l.flatten := by
  rw [List.flatten_cons, noDictInValues_append]

theorem noDict_attr (k : String) (v : PyVal) : noDictInValues (PyVal.attr k v) ↔ noDict v := by
  simp [PyVal.attr, noDictInValues]

theorem noDict_optAttr (k : String) (f : α → PyVal) (o : Option α) (h : ∀ x, noDict (f x)) :
    noDictInValues (PyVal.optAttr k (o.map f)) := by
  cases o with
  | none => simp [PyVal.optAttr, noDictInValues]
  | some a => simp [PyVal.optAttr, noDictInValues, h]

theorem noDict_optAttr' (k : String) (o : Option PyVal) (h : ∀ v, o = some v → noDict v) :
    noDictInValues (PyVal.optAttr k o) := by
  cases o with
  | none => simp [PyVal.optAttr, noDictInValues]
  | some a => simp [PyVal.optAttr, noDictInValues, h a rfl]

theorem noDict_enum (cls : String) [PyEnum E] (e : EnumVal E) : noDict (EnumVal.toPy cls e) := by
  cases e <;> simp [EnumVal.toPy, noDict]

theorem noDict_list (f : α → PyVal) (l : List α) (h : ∀ x, noDict (f x)) : noDict (.list (l.map f)) := by
  rw [noDict, noDictIn_iff]
  intro v hv
  obtain ⟨x, _, rfl⟩ := List.mem_map.1 hv
  exact h x

theorem noDict_int (i : Int) : noDict (.int i) := by simp [noDict]
theorem noDict_bool (i : Bool) : noDict (.bool i) := by simp [noDict]
theorem noDict_bytes (i : Bytes) : noDict (.bytes i) := by simp [noDict]
theorem noDict_str (i : PyStr) : noDict (.str i) := by simp [noDict]

end Dmr.Tools

open Dmr.Tools

namespace Dmr.Hytera

theorem RadioIp.toPy_noDict (x : RadioIp) : noDict x.toPy := by
  refine (noDict_object _ _).2 ?_
  refine (noDict_flatten_cons _ _).2 ⟨(noDict_attr _ _).2 (noDict_int _), ?_⟩
  refine (noDict_flatten_cons _ _).2 ⟨(noDict_attr _ _).2 (noDict_int _), ?_⟩
  refine (noDict_flatten_cons _ _).2 ⟨(noDict_attr _ _).2 (noDict_int _), ?_⟩
  refine (noDict_flatten_cons _ _).2 ⟨(noDict_attr _ _).2 (noDict_int _), ?_⟩
  simp [noDictInValues]

theorem RadioId.toPy_noDict (x : RadioId) : noDict x.toPy := by
  refine (noDict_object _ _).2 ?_
  refine (noDict_flatten_cons _ _).2 ⟨(noDict_attr _ _).2 (noDict_int _), ?_⟩
  simp [noDictInValues]

theorem Gpsdata.toPy_noDict (x : Gpsdata) : noDict x.toPy := by
  refine (noDict_object _ _).2 ?_
  refine (noDict_flatten_cons _ _).2 ⟨(noDict_attr _ _).2 (noDict_bytes _), ?_⟩
  refine (noDict_flatten_cons _ _).2 ⟨(noDict_attr _ _).2 (noDict_bytes _), ?_⟩
  refine (noDict_flatten_cons _ _).2 ⟨(noDict_attr _ _).2 (noDict_bytes _), ?_⟩
  refine (noDict_flatten_cons _ _).2 ⟨(noDict_attr _ _).2 (noDict_bytes _), ?_⟩
  refine (noDict_flatten_cons _ _).2 ⟨(noDict_attr _ _).2 (noDict_bytes _), ?_⟩
  refine (noDict_flatten_cons _ _).2 ⟨(noDict_attr _ _).2 (noDict_bytes _), ?_⟩
  refine (noDict_flatten_cons _ _).2 ⟨(noDict_attr _ _).2 (noDict_bytes _), ?_⟩
  refine (noDict_flatten_cons _ _).2 ⟨(noDict_attr _ _).2 (noDict_bytes _), ?_⟩
  refine (noDict_flatten_cons _ _).2 ⟨(noDict_attr _ _).2 (noDict_bytes _), ?_⟩
  simp [noDictInValues]

theorem Datetimestring.toPy_noDict (x : Datetimestring) : noDict x.toPy := by
  refine (noDict_object _ _).2 ?_
  refine (noDict_flatten_cons _ _).2 ⟨(noDict_attr _ _).2 (noDict_str _), ?_⟩
  simp [noDictInValues]

theorem Intervalstring.toPy_noDict (x : Intervalstring) : noDict x.toPy := by
  refine (noDict_object _ _).2 ?_
  refine (noDict_flatten_cons _ _).2 ⟨(noDict_attr _ _).2 (noDict_str _), ?_⟩
  simp [noDictInValues]

theorem DataDeliveryStates.toPy_noDict (x : DataDeliveryStates) : noDict x.toPy := by
  refine (noDict_object _ _).2 ?_
  refine (noDict_flatten_cons _ _).2 ⟨(noDict_attr _ _).2 (noDict_bytes _), ?_⟩
  refine (noDict_flatten_cons _ _).2 ⟨(noDict_attr _ _).2 (noDict_enum _ _), ?_⟩
  refine (noDict_flatten_cons _ _).2 ⟨(noDict_attr _ _).2 (noDict_int _), ?_⟩
  refine (noDict_flatten_cons _ _).2 ⟨(noDict_attr _ _).2 (RadioIp.toPy_noDict x.radio_ip), ?_⟩
  refine (noDict_flatten_cons _ _).2 ⟨(noDict_attr _ _).2 (noDict_int _), ?_⟩
  refine (noDict_flatten_cons _ _).2 ⟨(noDict_attr _ _).2 (noDict_enum _ _), ?_⟩
  simp [noDictInValues]

theorem DataTransmitProtocol.LastDataSlice.toPy_noDict (x : DataTransmitProtocol.LastDataSlice) : noDict x.toPy := by
  refine (noDict_object _ _).2 ?_
  refine (noDict_flatten_cons _ _).2 ⟨(noDict_attr _ _).2 (RadioIp.toPy_noDict x.destination_ip), ?_⟩
  refine (noDict_flatten_cons _ _).2 ⟨(noDict_attr _ _).2 (RadioIp.toPy_noDict x.source_ip), ?_⟩
  simp [noDictInValues]

theorem DataTransmitProtocol.DtpRequest.toPy_noDict (x : DataTransmitProtocol.DtpRequest) : noDict x.toPy := by
  refine (noDict_object _ _).2 ?_
  refine (noDict_flatten_cons _ _).2 ⟨(noDict_attr _ _).2 (RadioIp.toPy_noDict x.destination_ip), ?_⟩
  refine (noDict_flatten_cons _ _).2 ⟨(noDict_attr _ _).2 (RadioIp.toPy_noDict x.source_ip), ?_⟩
  refine (noDict_flatten_cons _ _).2 ⟨(noDict_attr _ _).2 (noDict_int _), ?_⟩
  refine (noDict_flatten_cons _ _).2 ⟨(noDict_attr _ _).2 (noDict_str _), ?_⟩
  simp [noDictInValues]

theorem DataTransmitProtocol.DataSliceAnswer.toPy_noDict (x : DataTransmitProtocol.DataSliceAnswer) : noDict x.toPy := by
  refine (noDict_object _ _).2 ?_
  refine (noDict_flatten_cons _ _).2 ⟨(noDict_attr _ _).2 (RadioIp.toPy_noDict x.destination_ip), ?_⟩
  refine (noDict_flatten_cons _ _).2 ⟨(noDict_attr _ _).2 (RadioIp.toPy_noDict x.source_ip), ?_⟩
  refine (noDict_flatten_cons _ _).2 ⟨(noDict_attr _ _).2 (noDict_int _), ?_⟩
  refine (noDict_flatten_cons _ _).2 ⟨(noDict_attr _ _).2 (noDict_enum _ _), ?_⟩
  simp [noDictInValues]

theorem DataTransmitProtocol.DataSliceTransmit.toPy_noDict (x : DataTransmitProtocol.DataSliceTransmit) : noDict x.toPy := by
  refine (noDict_object _ _).2 ?_
  refine (noDict_flatten_cons _ _).2 ⟨(noDict_attr _ _).2 (RadioIp.toPy_noDict x.destination_ip), ?_⟩
  refine (noDict_flatten_cons _ _).2 ⟨(noDict_attr _ _).2 (RadioIp.toPy_noDict x.source_ip), ?_⟩
  refine (noDict_flatten_cons _ _).2 ⟨(noDict_attr _ _).2 (noDict_int _), ?_⟩
  refine (noDict_flatten_cons _ _).2 ⟨(noDict_attr _ _).2 (noDict_bytes _), ?_⟩
  simp [noDictInValues]

theorem DataTransmitProtocol.LastDataSliceAnswer.toPy_noDict (x : DataTransmitProtocol.LastDataSliceAnswer) : noDict x.toPy := by
  refine (noDict_object _ _).2 ?_
  refine (noDict_flatten_cons _ _).2 ⟨(noDict_attr _ _).2 (RadioIp.toPy_noDict x.destination_ip), ?_⟩
  refine (noDict_flatten_cons _ _).2 ⟨(noDict_attr _ _).2 (RadioIp.toPy_noDict x.source_ip), ?_⟩
  refine (noDict_flatten_cons _ _).2 ⟨(noDict_attr _ _).2 (noDict_enum _ _), ?_⟩
  simp [noDictInValues]

theorem DataTransmitProtocol.DtpAnswer.toPy_noDict (x : DataTransmitProtocol.DtpAnswer) : noDict x.toPy := by
  refine (noDict_object _ _).2 ?_
  refine (noDict_flatten_cons _ _).2 ⟨(noDict_attr _ _).2 (RadioIp.toPy_noDict x.destination_ip), ?_⟩
  refine (noDict_flatten_cons _ _).2 ⟨(noDict_attr _ _).2 (RadioIp.toPy_noDict x.source_ip), ?_⟩
  refine (noDict_flatten_cons _ _).2 ⟨(noDict_attr _ _).2 (noDict_enum _ _), ?_⟩
  simp [noDictInValues]

theorem DataTransmitProtocol.DataUnion.toPy_noDict (x : DataTransmitProtocol.DataUnion) : noDict x.toPy := by
  cases x with
  | dtpRequest x => exact DataTransmitProtocol.DtpRequest.toPy_noDict x
  | dataSliceTransmit x => exact DataTransmitProtocol.DataSliceTransmit.toPy_noDict x
  | dataSliceAnswer x => exact DataTransmitProtocol.DataSliceAnswer.toPy_noDict x
  | lastDataSliceAnswer x => exact DataTransmitProtocol.LastDataSliceAnswer.toPy_noDict x
  | dtpAnswer x => exact DataTransmitProtocol.DtpAnswer.toPy_noDict x
  | lastDataSlice x => exact DataTransmitProtocol.LastDataSlice.toPy_noDict x

theorem DataTransmitProtocol.toPy_noDict (x : DataTransmitProtocol) : noDict x.toPy := by
  refine (noDict_object _ _).2 ?_
  refine (noDict_flatten_cons _ _).2 ⟨(noDict_attr _ _).2 (noDict_enum _ _), ?_⟩
  refine (noDict_flatten_cons _ _).2 ⟨(noDict_attr _ _).2 (noDict_enum _ _), ?_⟩
  refine (noDict_flatten_cons _ _).2 ⟨(noDict_attr _ _).2 (noDict_int _), ?_⟩
  refine (noDict_flatten_cons _ _).2 ⟨noDict_optAttr _ _ _ fun y => DataTransmitProtocol.DataUnion.toPy_noDict y, ?_⟩
  simp [noDictInValues]

theorem LocationProtocol.TriggeredReportStopAnswer.toPy_noDict (x : LocationProtocol.TriggeredReportStopAnswer) : noDict x.toPy := by
  refine (noDict_object _ _).2 ?_
  refine (noDict_flatten_cons _ _).2 ⟨(noDict_attr _ _).2 (noDict_int _), ?_⟩
  refine (noDict_flatten_cons _ _).2 ⟨(noDict_attr _ _).2 (RadioIp.toPy_noDict x.radio_ip), ?_⟩
  refine (noDict_flatten_cons _ _).2 ⟨(noDict_attr _ _).2 (noDict_enum _ _), ?_⟩
  simp [noDictInValues]

theorem LocationProtocol.ConditionReportRequest.toPy_noDict (x : LocationProtocol.ConditionReportRequest) : noDict x.toPy := by
  refine (noDict_object _ _).2 ?_
  refine (noDict_flatten_cons _ _).2 ⟨(noDict_attr _ _).2 (noDict_int _), ?_⟩
  refine (noDict_flatten_cons _ _).2 ⟨(noDict_attr _ _).2 (RadioIp.toPy_noDict x.radio_ip), ?_⟩
  refine (noDict_flatten_cons _ _).2 ⟨(noDict_attr _ _).2 (noDict_int _), ?_⟩
  refine (noDict_flatten_cons _ _).2 ⟨(noDict_attr _ _).2 (noDict_int _), ?_⟩
  refine (noDict_flatten_cons _ _).2 ⟨(noDict_attr _ _).2 (Datetimestring.toPy_noDict x.start_time), ?_⟩
  refine (noDict_flatten_cons _ _).2 ⟨(noDict_attr _ _).2 (Datetimestring.toPy_noDict x.stop_time), ?_⟩
  refine (noDict_flatten_cons _ _).2 ⟨(noDict_attr _ _).2 (Intervalstring.toPy_noDict x.interval), ?_⟩
  refine (noDict_flatten_cons _ _).2 ⟨(noDict_attr _ _).2 (Intervalstring.toPy_noDict x.max_interval), ?_⟩
  simp [noDictInValues]

theorem LocationProtocol.QuickGpsPayload.toPy_noDict (x : LocationProtocol.QuickGpsPayload) : noDict x.toPy := by
  refine (noDict_object _ _).2 ?_
  refine (noDict_flatten_cons _ _).2 ⟨(noDict_attr _ _).2 (Datetimestring.toPy_noDict x.start_time), ?_⟩
  refine (noDict_flatten_cons _ _).2 ⟨(noDict_attr _ _).2 (Datetimestring.toPy_noDict x.stop_time), ?_⟩
  refine (noDict_flatten_cons _ _).2 ⟨(noDict_attr _ _).2 (Intervalstring.toPy_noDict x.interval), ?_⟩
  refine (noDict_flatten_cons _ _).2 ⟨(noDict_attr _ _).2 (noDict_int _), ?_⟩
  refine (noDict_flatten_cons _ _).2 ⟨(noDict_attr _ _).2 (noDict_int _), ?_⟩
  refine (noDict_flatten_cons _ _).2 ⟨(noDict_attr _ _).2 (noDict_int _), ?_⟩
  simp [noDictInValues]

theorem LocationProtocol.ConditionQuickGpsRequest.toPy_noDict (x : LocationProtocol.ConditionQuickGpsRequest) : noDict x.toPy := by
  refine (noDict_object _ _).2 ?_
  refine (noDict_flatten_cons _ _).2 ⟨(noDict_attr _ _).2 (noDict_int _), ?_⟩
  refine (noDict_flatten_cons _ _).2 ⟨(noDict_attr _ _).2 (RadioIp.toPy_noDict x.radio_ip), ?_⟩
  refine (noDict_flatten_cons _ _).2 ⟨(noDict_attr _ _).2 (noDict_enum _ _), ?_⟩
  refine (noDict_flatten_cons _ _).2 ⟨noDict_optAttr _ _ _ fun y => LocationProtocol.QuickGpsPayload.toPy_noDict y, ?_⟩
  simp [noDictInValues]

theorem LocationProtocol.ConditionReport.toPy_noDict (x : LocationProtocol.ConditionReport) : noDict x.toPy := by
  refine (noDict_object _ _).2 ?_
  refine (noDict_flatten_cons _ _).2 ⟨(noDict_attr _ _).2 (noDict_int _), ?_⟩
  refine (noDict_flatten_cons _ _).2 ⟨(noDict_attr _ _).2 (RadioIp.toPy_noDict x.radio_ip), ?_⟩
  refine (noDict_flatten_cons _ _).2 ⟨(noDict_attr _ _).2 (Gpsdata.toPy_noDict x.gpsdata), ?_⟩
  simp [noDictInValues]

theorem LocationProtocol.EmergencyReport.toPy_noDict (x : LocationProtocol.EmergencyReport) : noDict x.toPy := by
  refine (noDict_object _ _).2 ?_
  refine (noDict_flatten_cons _ _).2 ⟨(noDict_attr _ _).2 (RadioIp.toPy_noDict x.radio_ip), ?_⟩
  refine (noDict_flatten_cons _ _).2 ⟨(noDict_attr _ _).2 (noDict_int _), ?_⟩
  refine (noDict_flatten_cons _ _).2 ⟨(noDict_attr _ _).2 (Gpsdata.toPy_noDict x.gpsdata), ?_⟩
  simp [noDictInValues]

theorem LocationProtocol.TriggeredReportAnswer.toPy_noDict (x : LocationProtocol.TriggeredReportAnswer) : noDict x.toPy := by
  refine (noDict_object _ _).2 ?_
  refine (noDict_flatten_cons _ _).2 ⟨(noDict_attr _ _).2 (noDict_int _), ?_⟩
  refine (noDict_flatten_cons _ _).2 ⟨(noDict_attr _ _).2 (RadioIp.toPy_noDict x.radio_ip), ?_⟩
  refine (noDict_flatten_cons _ _).2 ⟨(noDict_attr _ _).2 (noDict_enum _ _), ?_⟩
  simp [noDictInValues]

theorem LocationProtocol.StandardAnswerWithRssi.toPy_noDict (x : LocationProtocol.StandardAnswerWithRssi) : noDict x.toPy := by
  refine (noDict_object _ _).2 ?_
  refine (noDict_flatten_cons _ _).2 ⟨(noDict_attr _ _).2 (noDict_int _), ?_⟩
  refine (noDict_flatten_cons _ _).2 ⟨(noDict_attr _ _).2 (RadioIp.toPy_noDict x.radio_ip), ?_⟩
  refine (noDict_flatten_cons _ _).2 ⟨(noDict_attr _ _).2 (noDict_enum _ _), ?_⟩
  refine (noDict_flatten_cons _ _).2 ⟨(noDict_attr _ _).2 (Gpsdata.toPy_noDict x.gpsdata), ?_⟩
  refine (noDict_flatten_cons _ _).2 ⟨(noDict_attr _ _).2 (noDict_int _), ?_⟩
  simp [noDictInValues]

theorem LocationProtocol.StandardRequest.toPy_noDict (x : LocationProtocol.StandardRequest) : noDict x.toPy := by
  refine (noDict_object _ _).2 ?_
  refine (noDict_flatten_cons _ _).2 ⟨(noDict_attr _ _).2 (noDict_int _), ?_⟩
  refine (noDict_flatten_cons _ _).2 ⟨(noDict_attr _ _).2 (RadioIp.toPy_noDict x.radio_ip), ?_⟩
  simp [noDictInValues]

theorem LocationProtocol.TriggeredReportRequest.toPy_noDict (x : LocationProtocol.TriggeredReportRequest) : noDict x.toPy := by
  refine (noDict_object _ _).2 ?_
  refine (noDict_flatten_cons _ _).2 ⟨(noDict_attr _ _).2 (noDict_int _), ?_⟩
  refine (noDict_flatten_cons _ _).2 ⟨(noDict_attr _ _).2 (RadioIp.toPy_noDict x.radio_ip), ?_⟩
  refine (noDict_flatten_cons _ _).2 ⟨(noDict_attr _ _).2 (Datetimestring.toPy_noDict x.start_time), ?_⟩
  refine (noDict_flatten_cons _ _).2 ⟨(noDict_attr _ _).2 (Datetimestring.toPy_noDict x.stop_time), ?_⟩
  refine (noDict_flatten_cons _ _).2 ⟨(noDict_attr _ _).2 (Intervalstring.toPy_noDict x.interval), ?_⟩
  simp [noDictInValues]

theorem LocationProtocol.StandardAnswer.toPy_noDict (x : LocationProtocol.StandardAnswer) : noDict x.toPy := by
  refine (noDict_object _ _).2 ?_
  refine (noDict_flatten_cons _ _).2 ⟨(noDict_attr _ _).2 (noDict_int _), ?_⟩
  refine (noDict_flatten_cons _ _).2 ⟨(noDict_attr _ _).2 (RadioIp.toPy_noDict x.radio_ip), ?_⟩
  refine (noDict_flatten_cons _ _).2 ⟨(noDict_attr _ _).2 (noDict_enum _ _), ?_⟩
  refine (noDict_flatten_cons _ _).2 ⟨(noDict_attr _ _).2 (Gpsdata.toPy_noDict x.gpsdata), ?_⟩
  simp [noDictInValues]

theorem LocationProtocol.ConditionReportAnswer.toPy_noDict (x : LocationProtocol.ConditionReportAnswer) : noDict x.toPy := by
  refine (noDict_object _ _).2 ?_
  refine (noDict_flatten_cons _ _).2 ⟨(noDict_attr _ _).2 (noDict_int _), ?_⟩
  refine (noDict_flatten_cons _ _).2 ⟨(noDict_attr _ _).2 (RadioIp.toPy_noDict x.radio_ip), ?_⟩
  refine (noDict_flatten_cons _ _).2 ⟨(noDict_attr _ _).2 (noDict_enum _ _), ?_⟩
  refine (noDict_flatten_cons _ _).2 ⟨(noDict_attr _ _).2 (noDict_enum _ _), ?_⟩
  simp [noDictInValues]

theorem LocationProtocol.EmergencyReportStopRequest.toPy_noDict (x : LocationProtocol.EmergencyReportStopRequest) : noDict x.toPy := by
  refine (noDict_object _ _).2 ?_
  refine (noDict_flatten_cons _ _).2 ⟨(noDict_attr _ _).2 (noDict_int _), ?_⟩
  refine (noDict_flatten_cons _ _).2 ⟨(noDict_attr _ _).2 (RadioIp.toPy_noDict x.radio_ip), ?_⟩
  simp [noDictInValues]

theorem LocationProtocol.ConditionQuickGpsAnswer.toPy_noDict (x : LocationProtocol.ConditionQuickGpsAnswer) : noDict x.toPy := by
  refine (noDict_object _ _).2 ?_
  refine (noDict_flatten_cons _ _).2 ⟨(noDict_attr _ _).2 (noDict_int _), ?_⟩
  refine (noDict_flatten_cons _ _).2 ⟨(noDict_attr _ _).2 (RadioIp.toPy_noDict x.radio_ip), ?_⟩
  refine (noDict_flatten_cons _ _).2 ⟨(noDict_attr _ _).2 (noDict_enum _ _), ?_⟩
  refine (noDict_flatten_cons _ _).2 ⟨(noDict_attr _ _).2 (noDict_enum _ _), ?_⟩
  simp [noDictInValues]

theorem LocationProtocol.TriggeredReport.toPy_noDict (x : LocationProtocol.TriggeredReport) : noDict x.toPy := by
  refine (noDict_object _ _).2 ?_
  refine (noDict_flatten_cons _ _).2 ⟨(noDict_attr _ _).2 (noDict_int _), ?_⟩
  refine (noDict_flatten_cons _ _).2 ⟨(noDict_attr _ _).2 (RadioIp.toPy_noDict x.radio_ip), ?_⟩
  refine (noDict_flatten_cons _ _).2 ⟨(noDict_attr _ _).2 (Intervalstring.toPy_noDict x.time_remaining), ?_⟩
  refine (noDict_flatten_cons _ _).2 ⟨(noDict_attr _ _).2 (Gpsdata.toPy_noDict x.gpsdata), ?_⟩
  simp [noDictInValues]

theorem LocationProtocol.ConditionReportWithRssi.toPy_noDict (x : LocationProtocol.ConditionReportWithRssi) : noDict x.toPy := by
  refine (noDict_object _ _).2 ?_
  refine (noDict_flatten_cons _ _).2 ⟨(noDict_attr _ _).2 (noDict_int _), ?_⟩
  refine (noDict_flatten_cons _ _).2 ⟨(noDict_attr _ _).2 (RadioIp.toPy_noDict x.radio_ip), ?_⟩
  refine (noDict_flatten_cons _ _).2 ⟨(noDict_attr _ _).2 (noDict_enum _ _), ?_⟩
  refine (noDict_flatten_cons _ _).2 ⟨(noDict_attr _ _).2 (Gpsdata.toPy_noDict x.gpsdata), ?_⟩
  refine (noDict_flatten_cons _ _).2 ⟨(noDict_attr _ _).2 (noDict_int _), ?_⟩
  simp [noDictInValues]

theorem LocationProtocol.EmergencyReportStopAnswer.toPy_noDict (x : LocationProtocol.EmergencyReportStopAnswer) : noDict x.toPy := by
  refine (noDict_object _ _).2 ?_
  refine (noDict_flatten_cons _ _).2 ⟨(noDict_attr _ _).2 (noDict_int _), ?_⟩
  refine (noDict_flatten_cons _ _).2 ⟨(noDict_attr _ _).2 (RadioIp.toPy_noDict x.radio_ip), ?_⟩
  refine (noDict_flatten_cons _ _).2 ⟨(noDict_attr _ _).2 (noDict_enum _ _), ?_⟩
  simp [noDictInValues]

theorem LocationProtocol.TriggeredReportStopRequest.toPy_noDict (x : LocationProtocol.TriggeredReportStopRequest) : noDict x.toPy := by
  refine (noDict_object _ _).2 ?_
  refine (noDict_flatten_cons _ _).2 ⟨(noDict_attr _ _).2 (noDict_int _), ?_⟩
  refine (noDict_flatten_cons _ _).2 ⟨(noDict_attr _ _).2 (RadioIp.toPy_noDict x.radio_ip), ?_⟩
  simp [noDictInValues]

theorem LocationProtocol.DataUnion.toPy_noDict (x : LocationProtocol.DataUnion) : noDict x.toPy := by
  cases x with
  | triggeredReportAnswer x => exact LocationProtocol.TriggeredReportAnswer.toPy_noDict x
  | emergencyReportStopRequest x => exact LocationProtocol.EmergencyReportStopRequest.toPy_noDict x
  | conditionQuickGpsRequest x => exact LocationProtocol.ConditionQuickGpsRequest.toPy_noDict x
  | conditionReport x => exact LocationProtocol.ConditionReport.toPy_noDict x
  | emergencyReportStopAnswer x => exact LocationProtocol.EmergencyReportStopAnswer.toPy_noDict x
  | conditionReportAnswer x => exact LocationProtocol.ConditionReportAnswer.toPy_noDict x
  | standardAnswer x => exact LocationProtocol.StandardAnswer.toPy_noDict x
  | standardRequest x => exact LocationProtocol.StandardRequest.toPy_noDict x
  | triggeredReport x => exact LocationProtocol.TriggeredReport.toPy_noDict x
  | triggeredReportStopAnswer x => exact LocationProtocol.TriggeredReportStopAnswer.toPy_noDict x
  | standardAnswerWithRssi x => exact LocationProtocol.StandardAnswerWithRssi.toPy_noDict x
  | conditionReportWithRssi x => exact LocationProtocol.ConditionReportWithRssi.toPy_noDict x
  | triggeredReportStopRequest x => exact LocationProtocol.TriggeredReportStopRequest.toPy_noDict x
  | emergencyReport x => exact LocationProtocol.EmergencyReport.toPy_noDict x
  | conditionReportRequest x => exact LocationProtocol.ConditionReportRequest.toPy_noDict x
  | triggeredReportRequest x => exact LocationProtocol.TriggeredReportRequest.toPy_noDict x
  | conditionQuickGpsAnswer x => exact LocationProtocol.ConditionQuickGpsAnswer.toPy_noDict x

theorem LocationProtocol.toPy_noDict (x : LocationProtocol) : noDict x.toPy := by
  refine (noDict_object _ _).2 ?_
  refine (noDict_flatten_cons _ _).2 ⟨(noDict_attr _ _).2 (noDict_enum _ _), ?_⟩
  refine (noDict_flatten_cons _ _).2 ⟨(noDict_attr _ _).2 (noDict_int _), ?_⟩
  refine (noDict_flatten_cons _ _).2 ⟨noDict_optAttr _ _ _ fun y => LocationProtocol.DataUnion.toPy_noDict y, ?_⟩
  simp [noDictInValues]

theorem RadioControlProtocol.BroadcastStatusConfigurationReply.toPy_noDict (x : RadioControlProtocol.BroadcastStatusConfigurationReply) : noDict x.toPy := by
  refine (noDict_object _ _).2 ?_
  refine (noDict_flatten_cons _ _).2 ⟨(noDict_attr _ _).2 (noDict_enum _ _), ?_⟩
  simp [noDictInValues]

theorem RadioControlProtocol.BroadcastConfiguration.toPy_noDict (x : RadioControlProtocol.BroadcastConfiguration) : noDict x.toPy := by
  refine (noDict_object _ _).2 ?_
  refine (noDict_flatten_cons _ _).2 ⟨(noDict_attr _ _).2 (noDict_int _), ?_⟩
  refine (noDict_flatten_cons _ _).2 ⟨(noDict_attr _ _).2 (noDict_int _), ?_⟩
  simp [noDictInValues]

theorem RadioControlProtocol.BroadcastStatusConfigurationRequest.toPy_noDict (x : RadioControlProtocol.BroadcastStatusConfigurationRequest) : noDict x.toPy := by
  refine (noDict_object _ _).2 ?_
  refine (noDict_flatten_cons _ _).2 ⟨(noDict_attr _ _).2 (noDict_int _), ?_⟩
  refine (noDict_flatten_cons _ _).2 ⟨(noDict_attr _ _).2 (noDict_list _ _ fun y => RadioControlProtocol.BroadcastConfiguration.toPy_noDict y), ?_⟩
  simp [noDictInValues]

theorem RadioControlProtocol.RadioIdentificationReply.toPy_noDict (x : RadioControlProtocol.RadioIdentificationReply) : noDict x.toPy := by
  refine (noDict_object _ _).2 ?_
  refine (noDict_flatten_cons _ _).2 ⟨noDict_optAttr _ _ _ fun y => noDict_bytes _, ?_⟩
  refine (noDict_flatten_cons _ _).2 ⟨noDict_optAttr _ _ _ fun y => noDict_str _, ?_⟩
  refine (noDict_flatten_cons _ _).2 ⟨noDict_optAttr _ _ _ fun y => noDict_bytes _, ?_⟩
  simp [noDictInValues]

theorem RadioControlProtocol.GenericData.toPy_noDict (x : RadioControlProtocol.GenericData) : noDict x.toPy := by
  refine (noDict_object _ _).2 ?_
  refine (noDict_flatten_cons _ _).2 ⟨(noDict_attr _ _).2 (noDict_bytes _), ?_⟩
  simp [noDictInValues]

theorem RadioControlProtocol.CallRequest.toPy_noDict (x : RadioControlProtocol.CallRequest) : noDict x.toPy := by
  refine (noDict_object _ _).2 ?_
  refine (noDict_flatten_cons _ _).2 ⟨(noDict_attr _ _).2 (noDict_enum _ _), ?_⟩
  refine (noDict_flatten_cons _ _).2 ⟨(noDict_attr _ _).2 (noDict_int _), ?_⟩
  simp [noDictInValues]

theorem RadioControlProtocol.RemoveRadioReply.toPy_noDict (x : RadioControlProtocol.RemoveRadioReply) : noDict x.toPy := by
  refine (noDict_object _ _).2 ?_
  refine (noDict_flatten_cons _ _).2 ⟨(noDict_attr _ _).2 (noDict_enum _ _), ?_⟩
  simp [noDictInValues]

theorem RadioControlProtocol.RemoveRadioRequest.toPy_noDict (x : RadioControlProtocol.RemoveRadioRequest) : noDict x.toPy := by
  refine (noDict_object _ _).2 ?_
  simp [noDictInValues]

theorem RadioControlProtocol.CallReply.toPy_noDict (x : RadioControlProtocol.CallReply) : noDict x.toPy := by
  refine (noDict_object _ _).2 ?_
  refine (noDict_flatten_cons _ _).2 ⟨(noDict_attr _ _).2 (noDict_enum _ _), ?_⟩
  simp [noDictInValues]

theorem RadioControlProtocol.DataUnion.toPy_noDict (x : RadioControlProtocol.DataUnion) : noDict x.toPy := by
  cases x with
  | callReply x => exact RadioControlProtocol.CallReply.toPy_noDict x
  | radioIdentificationReply x => exact RadioControlProtocol.RadioIdentificationReply.toPy_noDict x
  | broadcastStatusConfigurationRequest x => exact RadioControlProtocol.BroadcastStatusConfigurationRequest.toPy_noDict x
  | callRequest x => exact RadioControlProtocol.CallRequest.toPy_noDict x
  | removeRadioRequest x => exact RadioControlProtocol.RemoveRadioRequest.toPy_noDict x
  | broadcastStatusConfigurationReply x => exact RadioControlProtocol.BroadcastStatusConfigurationReply.toPy_noDict x
  | removeRadioReply x => exact RadioControlProtocol.RemoveRadioReply.toPy_noDict x
  | genericData x => exact RadioControlProtocol.GenericData.toPy_noDict x

theorem RadioControlProtocol.toPy_noDict (x : RadioControlProtocol) : noDict x.toPy := by
  refine (noDict_object _ _).2 ?_
  refine (noDict_flatten_cons _ _).2 ⟨(noDict_attr _ _).2 (noDict_enum _ _), ?_⟩
  refine (noDict_flatten_cons _ _).2 ⟨(noDict_attr _ _).2 (noDict_int _), ?_⟩
  refine (noDict_flatten_cons _ _).2 ⟨(noDict_attr _ _).2 (RadioControlProtocol.DataUnion.toPy_noDict x.data), ?_⟩
  simp [noDictInValues]

theorem RadioRegistrationService.toPy_noDict (x : RadioRegistrationService) : noDict x.toPy := by
  refine (noDict_object _ _).2 ?_
  refine (noDict_flatten_cons _ _).2 ⟨(noDict_attr _ _).2 (noDict_bytes _), ?_⟩
  refine (noDict_flatten_cons _ _).2 ⟨(noDict_attr _ _).2 (noDict_enum _ _), ?_⟩
  refine (noDict_flatten_cons _ _).2 ⟨(noDict_attr _ _).2 (noDict_int _), ?_⟩
  refine (noDict_flatten_cons _ _).2 ⟨(noDict_attr _ _).2 (RadioIp.toPy_noDict x.radio_ip), ?_⟩
  refine (noDict_flatten_cons _ _).2 ⟨noDict_optAttr _ _ _ fun y => noDict_int _, ?_⟩
  refine (noDict_flatten_cons _ _).2 ⟨noDict_optAttr _ _ _ fun y => noDict_int _, ?_⟩
  simp [noDictInValues]

theorem TelemetryProtocol.StandardStatusReport.toPy_noDict (x : TelemetryProtocol.StandardStatusReport) : noDict x.toPy := by
  refine (noDict_object _ _).2 ?_
  refine (noDict_flatten_cons _ _).2 ⟨(noDict_attr _ _).2 (RadioIp.toPy_noDict x.source_ip), ?_⟩
  refine (noDict_flatten_cons _ _).2 ⟨(noDict_attr _ _).2 (RadioIp.toPy_noDict x.target_ip), ?_⟩
  refine (noDict_flatten_cons _ _).2 ⟨(noDict_attr _ _).2 (noDict_enum _ _), ?_⟩
  refine (noDict_flatten_cons _ _).2 ⟨(noDict_attr _ _).2 (noDict_enum _ _), ?_⟩
  refine (noDict_flatten_cons _ _).2 ⟨(noDict_attr _ _).2 (noDict_bytes _), ?_⟩
  refine (noDict_flatten_cons _ _).2 ⟨(noDict_attr _ _).2 (noDict_enum _ _), ?_⟩
  simp [noDictInValues]

theorem TelemetryProtocol.VioExtendedStatus.toPy_noDict (x : TelemetryProtocol.VioExtendedStatus) : noDict x.toPy := by
  refine (noDict_object _ _).2 ?_
  refine (noDict_flatten_cons _ _).2 ⟨(noDict_attr _ _).2 (noDict_enum _ _), ?_⟩
  refine (noDict_flatten_cons _ _).2 ⟨(noDict_attr _ _).2 (noDict_int _), ?_⟩
  refine (noDict_flatten_cons _ _).2 ⟨(noDict_attr _ _).2 (noDict_str _), ?_⟩
  simp [noDictInValues]

theorem TelemetryProtocol.RemoteControlAnswer.toPy_noDict (x : TelemetryProtocol.RemoteControlAnswer) : noDict x.toPy := by
  refine (noDict_object _ _).2 ?_
  refine (noDict_flatten_cons _ _).2 ⟨(noDict_attr _ _).2 (RadioIp.toPy_noDict x.source_ip), ?_⟩
  refine (noDict_flatten_cons _ _).2 ⟨(noDict_attr _ _).2 (RadioIp.toPy_noDict x.target_ip), ?_⟩
  refine (noDict_flatten_cons _ _).2 ⟨(noDict_attr _ _).2 (noDict_enum _ _), ?_⟩
  refine (noDict_flatten_cons _ _).2 ⟨(noDict_attr _ _).2 (noDict_enum _ _), ?_⟩
  refine (noDict_flatten_cons _ _).2 ⟨(noDict_attr _ _).2 (noDict_bytes _), ?_⟩
  refine (noDict_flatten_cons _ _).2 ⟨(noDict_attr _ _).2 (noDict_enum _ _), ?_⟩
  simp [noDictInValues]

theorem TelemetryProtocol.RemoteControlRequest.toPy_noDict (x : TelemetryProtocol.RemoteControlRequest) : noDict x.toPy := by
  refine (noDict_object _ _).2 ?_
  refine (noDict_flatten_cons _ _).2 ⟨(noDict_attr _ _).2 (RadioIp.toPy_noDict x.source_ip), ?_⟩
  refine (noDict_flatten_cons _ _).2 ⟨(noDict_attr _ _).2 (RadioIp.toPy_noDict x.target_ip), ?_⟩
  refine (noDict_flatten_cons _ _).2 ⟨(noDict_attr _ _).2 (noDict_enum _ _), ?_⟩
  refine (noDict_flatten_cons _ _).2 ⟨(noDict_attr _ _).2 (noDict_enum _ _), ?_⟩
  refine (noDict_flatten_cons _ _).2 ⟨(noDict_attr _ _).2 (noDict_bytes _), ?_⟩
  refine (noDict_flatten_cons _ _).2 ⟨(noDict_attr _ _).2 (noDict_enum _ _), ?_⟩
  simp [noDictInValues]

theorem TelemetryProtocol.ExtendedStatusReport.toPy_noDict (x : TelemetryProtocol.ExtendedStatusReport) : noDict x.toPy := by
  refine (noDict_object _ _).2 ?_
  refine (noDict_flatten_cons _ _).2 ⟨(noDict_attr _ _).2 (RadioIp.toPy_noDict x.source_ip), ?_⟩
  refine (noDict_flatten_cons _ _).2 ⟨(noDict_attr _ _).2 (RadioIp.toPy_noDict x.target_ip), ?_⟩
  refine (noDict_flatten_cons _ _).2 ⟨(noDict_attr _ _).2 (noDict_enum _ _), ?_⟩
  refine (noDict_flatten_cons _ _).2 ⟨(noDict_attr _ _).2 (noDict_enum _ _), ?_⟩
  refine (noDict_flatten_cons _ _).2 ⟨(noDict_attr _ _).2 (noDict_bytes _), ?_⟩
  refine (noDict_flatten_cons _ _).2 ⟨(noDict_attr _ _).2 (TelemetryProtocol.VioExtendedStatus.toPy_noDict x.result_messages), ?_⟩
  simp [noDictInValues]

theorem TelemetryProtocol.StandardStatusRequest.toPy_noDict (x : TelemetryProtocol.StandardStatusRequest) : noDict x.toPy := by
  refine (noDict_object _ _).2 ?_
  refine (noDict_flatten_cons _ _).2 ⟨(noDict_attr _ _).2 (RadioIp.toPy_noDict x.source_ip), ?_⟩
  refine (noDict_flatten_cons _ _).2 ⟨(noDict_attr _ _).2 (RadioIp.toPy_noDict x.target_ip), ?_⟩
  refine (noDict_flatten_cons _ _).2 ⟨(noDict_attr _ _).2 (noDict_enum _ _), ?_⟩
  refine (noDict_flatten_cons _ _).2 ⟨(noDict_attr _ _).2 (noDict_enum _ _), ?_⟩
  refine (noDict_flatten_cons _ _).2 ⟨(noDict_attr _ _).2 (noDict_bytes _), ?_⟩
  simp [noDictInValues]

theorem TelemetryProtocol.DataUnion.toPy_noDict (x : TelemetryProtocol.DataUnion) : noDict x.toPy := by
  cases x with
  | standardStatusRequest x => exact TelemetryProtocol.StandardStatusRequest.toPy_noDict x
  | remoteControlAnswer x => exact TelemetryProtocol.RemoteControlAnswer.toPy_noDict x
  | extendedStatusReport x => exact TelemetryProtocol.ExtendedStatusReport.toPy_noDict x
  | remoteControlRequest x => exact TelemetryProtocol.RemoteControlRequest.toPy_noDict x
  | standardStatusReport x => exact TelemetryProtocol.StandardStatusReport.toPy_noDict x

theorem TelemetryProtocol.toPy_noDict (x : TelemetryProtocol) : noDict x.toPy := by
  refine (noDict_object _ _).2 ?_
  refine (noDict_flatten_cons _ _).2 ⟨(noDict_attr _ _).2 (noDict_enum _ _), ?_⟩
  refine (noDict_flatten_cons _ _).2 ⟨(noDict_attr _ _).2 (noDict_int _), ?_⟩
  refine (noDict_flatten_cons _ _).2 ⟨(noDict_attr _ _).2 (noDict_int _), ?_⟩
  refine (noDict_flatten_cons _ _).2 ⟨(noDict_attr _ _).2 (noDict_enum _ _), ?_⟩
  refine (noDict_flatten_cons _ _).2 ⟨noDict_optAttr _ _ _ fun y => TelemetryProtocol.DataUnion.toPy_noDict y, ?_⟩
  simp [noDictInValues]

theorem TextMessageProtocol.toPy_noDict (x : TextMessageProtocol) : noDict x.toPy := by
  refine (noDict_object _ _).2 ?_
  refine (noDict_flatten_cons _ _).2 ⟨(noDict_attr _ _).2 (noDict_enum _ _), ?_⟩
  refine (noDict_flatten_cons _ _).2 ⟨(noDict_attr _ _).2 (noDict_enum _ _), ?_⟩
  refine (noDict_flatten_cons _ _).2 ⟨(noDict_attr _ _).2 (noDict_int _), ?_⟩
  refine (noDict_flatten_cons _ _).2 ⟨(noDict_attr _ _).2 (noDict_enum _ _), ?_⟩
  refine (noDict_flatten_cons _ _).2 ⟨(noDict_attr _ _).2 (noDict_int _), ?_⟩
  refine (noDict_flatten_cons _ _).2 ⟨noDict_optAttr _ _ _ fun y => noDict_int _, ?_⟩
  refine (noDict_flatten_cons _ _).2 ⟨(noDict_attr _ _).2 (noDict_int _), ?_⟩
  refine (noDict_flatten_cons _ _).2 ⟨(noDict_attr _ _).2 (RadioIp.toPy_noDict x.destination_ip), ?_⟩
  refine (noDict_flatten_cons _ _).2 ⟨noDict_optAttr _ _ _ fun y => RadioIp.toPy_noDict y, ?_⟩
  refine (noDict_flatten_cons _ _).2 ⟨noDict_optAttr _ _ _ fun y => noDict_enum _ _, ?_⟩
  refine (noDict_flatten_cons _ _).2 ⟨noDict_optAttr _ _ _ fun _ => noDict_int _, ?_⟩
  refine (noDict_flatten_cons _ _).2 ⟨noDict_optAttr _ _ _ fun y => noDict_str _, ?_⟩
  refine (noDict_flatten_cons _ _).2 ⟨noDict_optAttr _ _ _ fun y => noDict_str _, ?_⟩
  simp [noDictInValues]

theorem HyteraDmrApplicationProtocol.UndefinedProtocol.toPy_noDict (x : HyteraDmrApplicationProtocol.UndefinedProtocol) : noDict x.toPy := by
  refine (noDict_object _ _).2 ?_
  refine (noDict_flatten_cons _ _).2 ⟨(noDict_attr _ _).2 (noDict_bytes _), ?_⟩
  simp [noDictInValues]

theorem HyteraDmrApplicationProtocol.DataUnion.toPy_noDict (x : HyteraDmrApplicationProtocol.DataUnion) : noDict x.toPy := by
  cases x with
  | radioRegistrationService x => exact RadioRegistrationService.toPy_noDict x
  | telemetryProtocol x => exact TelemetryProtocol.toPy_noDict x
  | radioControlProtocol x => exact RadioControlProtocol.toPy_noDict x
  | textMessageProtocol x => exact TextMessageProtocol.toPy_noDict x
  | dataDeliveryStates x => exact DataDeliveryStates.toPy_noDict x
  | locationProtocol x => exact LocationProtocol.toPy_noDict x
  | dataTransmitProtocol x => exact DataTransmitProtocol.toPy_noDict x

theorem HyteraDmrApplicationProtocol.toPy_noDict (x : HyteraDmrApplicationProtocol) : noDict x.toPy := by
  refine (noDict_object _ _).2 ?_
  refine (noDict_flatten_cons _ _).2 ⟨(noDict_attr _ _).2 (noDict_bool _), ?_⟩
  refine (noDict_flatten_cons _ _).2 ⟨(noDict_attr _ _).2 (noDict_enum _ _), ?_⟩
  refine (noDict_flatten_cons _ _).2 ⟨noDict_optAttr _ _ _ fun y => HyteraDmrApplicationProtocol.DataUnion.toPy_noDict y, ?_⟩
  refine (noDict_flatten_cons _ _).2 ⟨(noDict_attr _ _).2 (noDict_int _), ?_⟩
  refine (noDict_flatten_cons _ _).2 ⟨(noDict_attr _ _).2 (noDict_bytes _), ?_⟩
  simp [noDictInValues]

theorem HyteraRadioNetworkProtocol.toPy_noDict (x : HyteraRadioNetworkProtocol) : noDict x.toPy := by
  refine (noDict_object _ _).2 ?_
  refine (noDict_flatten_cons _ _).2 ⟨(noDict_attr _ _).2 (noDict_bytes _), ?_⟩
  refine (noDict_flatten_cons _ _).2 ⟨(noDict_attr _ _).2 (noDict_int _), ?_⟩
  refine (noDict_flatten_cons _ _).2 ⟨(noDict_attr _ _).2 (noDict_int _), ?_⟩
  refine (noDict_flatten_cons _ _).2 ⟨(noDict_attr _ _).2 (noDict_enum _ _), ?_⟩
  refine (noDict_flatten_cons _ _).2 ⟨(noDict_attr _ _).2 (noDict_int _), ?_⟩
  refine (noDict_flatten_cons _ _).2 ⟨(noDict_attr _ _).2 (noDict_int _), ?_⟩
  refine (noDict_flatten_cons _ _).2 ⟨(noDict_attr _ _).2 (noDict_int _), ?_⟩
  refine (noDict_flatten_cons _ _).2 ⟨(noDict_attr _ _).2 (noDict_int _), ?_⟩
  refine (noDict_flatten_cons _ _).2 ⟨(noDict_attr _ _).2 (noDict_int _), ?_⟩
  refine (noDict_flatten_cons _ _).2 ⟨noDict_optAttr _ _ _ fun y => HyteraDmrApplicationProtocol.toPy_noDict y, ?_⟩
  simp [noDictInValues]

theorem HyteraSimpleTransportReliabilityProtocol.Option.toPy_noDict (x : HyteraSimpleTransportReliabilityProtocol.Option) : noDict x.toPy := by
  refine (noDict_object _ _).2 ?_
  refine (noDict_flatten_cons _ _).2 ⟨(noDict_attr _ _).2 (noDict_bool _), ?_⟩
  refine (noDict_flatten_cons _ _).2 ⟨(noDict_attr _ _).2 (noDict_enum _ _), ?_⟩
  refine (noDict_flatten_cons _ _).2 ⟨(noDict_attr _ _).2 (noDict_int _), ?_⟩
  refine (noDict_flatten_cons _ _).2 ⟨(noDict_attr _ _).2 (noDict_bytes _), ?_⟩
  simp [noDictInValues]

theorem HyteraSimpleTransportReliabilityProtocol.toPy_noDict (x : HyteraSimpleTransportReliabilityProtocol) : noDict x.toPy := by
  refine (noDict_object _ _).2 ?_
  refine (noDict_flatten_cons _ _).2 ⟨(noDict_attr _ _).2 (noDict_bytes _), ?_⟩
  refine (noDict_flatten_cons _ _).2 ⟨(noDict_attr _ _).2 (noDict_int _), ?_⟩
  refine (noDict_flatten_cons _ _).2 ⟨(noDict_attr _ _).2 (noDict_int _), ?_⟩
  refine (noDict_flatten_cons _ _).2 ⟨(noDict_attr _ _).2 (noDict_bool _), ?_⟩
  refine (noDict_flatten_cons _ _).2 ⟨(noDict_attr _ _).2 (noDict_bool _), ?_⟩
  refine (noDict_flatten_cons _ _).2 ⟨(noDict_attr _ _).2 (noDict_bool _), ?_⟩
  refine (noDict_flatten_cons _ _).2 ⟨(noDict_attr _ _).2 (noDict_bool _), ?_⟩
  refine (noDict_flatten_cons _ _).2 ⟨(noDict_attr _ _).2 (noDict_bool _), ?_⟩
  refine (noDict_flatten_cons _ _).2 ⟨(noDict_attr _ _).2 (noDict_bool _), ?_⟩
  refine (noDict_flatten_cons _ _).2 ⟨(noDict_attr _ _).2 (noDict_int _), ?_⟩
  refine (noDict_flatten_cons _ _).2 ⟨noDict_optAttr _ _ _ fun y => noDict_list _ _ fun y => HyteraSimpleTransportReliabilityProtocol.Option.toPy_noDict y, ?_⟩
  refine (noDict_flatten_cons _ _).2 ⟨noDict_optAttr _ _ _ fun y => noDict_list _ _ fun y => HyteraDmrApplicationProtocol.toPy_noDict y, ?_⟩
  refine (noDict_flatten_cons _ _).2 ⟨noDict_optAttr _ _ _ fun y => noDict_bytes _, ?_⟩
  simp [noDictInValues]

theorem IpSiteConnectHeartbeat.Keepalive.toPy_noDict (x : IpSiteConnectHeartbeat.Keepalive) : noDict x.toPy := by
  refine (noDict_object _ _).2 ?_
  refine (noDict_flatten_cons _ _).2 ⟨(noDict_attr _ _).2 (noDict_bytes _), ?_⟩
  simp [noDictInValues]

theorem IpSiteConnectHeartbeat.PingPong.toPy_noDict (x : IpSiteConnectHeartbeat.PingPong) : noDict x.toPy := by
  refine (noDict_object _ _).2 ?_
  refine (noDict_flatten_cons _ _).2 ⟨(noDict_attr _ _).2 (noDict_bytes _), ?_⟩
  refine (noDict_flatten_cons _ _).2 ⟨(noDict_attr _ _).2 (noDict_bytes _), ?_⟩
  refine (noDict_flatten_cons _ _).2 ⟨(noDict_attr _ _).2 (noDict_bytes _), ?_⟩
  refine (noDict_flatten_cons _ _).2 ⟨(noDict_attr _ _).2 (noDict_int _), ?_⟩
  refine (noDict_flatten_cons _ _).2 ⟨(noDict_attr _ _).2 (noDict_bytes _), ?_⟩
  simp [noDictInValues]

theorem IpSiteConnectHeartbeat.Unknown.toPy_noDict (x : IpSiteConnectHeartbeat.Unknown) : noDict x.toPy := by
  refine (noDict_object _ _).2 ?_
  refine (noDict_flatten_cons _ _).2 ⟨(noDict_attr _ _).2 (noDict_bytes _), ?_⟩
  simp [noDictInValues]

theorem IpSiteConnectHeartbeat.DataUnion.toPy_noDict (x : IpSiteConnectHeartbeat.DataUnion) : noDict x.toPy := by
  cases x with
  | keepalive x => exact IpSiteConnectHeartbeat.Keepalive.toPy_noDict x
  | pingPong x => exact IpSiteConnectHeartbeat.PingPong.toPy_noDict x
  | unknown x => exact IpSiteConnectHeartbeat.Unknown.toPy_noDict x

theorem IpSiteConnectHeartbeat.toPy_noDict (x : IpSiteConnectHeartbeat) : noDict x.toPy := by
  refine (noDict_object _ _).2 ?_
  refine (noDict_flatten_cons _ _).2 ⟨(noDict_attr _ _).2 (IpSiteConnectHeartbeat.DataUnion.toPy_noDict x.data), ?_⟩
  simp [noDictInValues]

theorem IpSiteConnectProtocol.toPy_noDict (x : IpSiteConnectProtocol) : noDict x.toPy := by
  refine (noDict_object _ _).2 ?_
  refine (noDict_flatten_cons _ _).2 ⟨(noDict_attr _ _).2 (noDict_bytes _), ?_⟩
  refine (noDict_flatten_cons _ _).2 ⟨(noDict_attr _ _).2 (noDict_bytes _), ?_⟩
  refine (noDict_flatten_cons _ _).2 ⟨(noDict_attr _ _).2 (noDict_int _), ?_⟩
  refine (noDict_flatten_cons _ _).2 ⟨(noDict_attr _ _).2 (noDict_bytes _), ?_⟩
  refine (noDict_flatten_cons _ _).2 ⟨(noDict_attr _ _).2 (noDict_enum _ _), ?_⟩
  refine (noDict_flatten_cons _ _).2 ⟨(noDict_attr _ _).2 (noDict_bytes _), ?_⟩
  refine (noDict_flatten_cons _ _).2 ⟨(noDict_attr _ _).2 (noDict_enum _ _), ?_⟩
  refine (noDict_flatten_cons _ _).2 ⟨(noDict_attr _ _).2 (noDict_enum _ _), ?_⟩
  refine (noDict_flatten_cons _ _).2 ⟨(noDict_attr _ _).2 (noDict_int _), ?_⟩
  refine (noDict_flatten_cons _ _).2 ⟨(noDict_attr _ _).2 (noDict_enum _ _), ?_⟩
  refine (noDict_flatten_cons _ _).2 ⟨(noDict_attr _ _).2 (noDict_bytes _), ?_⟩
  refine (noDict_flatten_cons _ _).2 ⟨(noDict_attr _ _).2 (noDict_bytes _), ?_⟩
  refine (noDict_flatten_cons _ _).2 ⟨(noDict_attr _ _).2 (noDict_bytes _), ?_⟩
  refine (noDict_flatten_cons _ _).2 ⟨(noDict_attr _ _).2 (noDict_enum _ _), ?_⟩
  refine (noDict_flatten_cons _ _).2 ⟨(noDict_attr _ _).2 (noDict_int _), ?_⟩
  refine (noDict_flatten_cons _ _).2 ⟨(noDict_attr _ _).2 (noDict_int _), ?_⟩
  refine (noDict_flatten_cons _ _).2 ⟨(noDict_attr _ _).2 (noDict_int _), ?_⟩
  refine (noDict_flatten_cons _ _).2 ⟨noDict_optAttr _ _ _ fun y => noDict_bytes _, ?_⟩
  simp [noDictInValues]

theorem RealTimeTransportProtocol.FixedHeader.toPy_noDict (x : RealTimeTransportProtocol.FixedHeader) : noDict x.toPy := by
  refine (noDict_object _ _).2 ?_
  refine (noDict_flatten_cons _ _).2 ⟨(noDict_attr _ _).2 (noDict_int _), ?_⟩
  refine (noDict_flatten_cons _ _).2 ⟨(noDict_attr _ _).2 (noDict_bool _), ?_⟩
  refine (noDict_flatten_cons _ _).2 ⟨(noDict_attr _ _).2 (noDict_bool _), ?_⟩
  refine (noDict_flatten_cons _ _).2 ⟨(noDict_attr _ _).2 (noDict_int _), ?_⟩
  refine (noDict_flatten_cons _ _).2 ⟨(noDict_attr _ _).2 (noDict_bool _), ?_⟩
  refine (noDict_flatten_cons _ _).2 ⟨(noDict_attr _ _).2 (noDict_int _), ?_⟩
  refine (noDict_flatten_cons _ _).2 ⟨(noDict_attr _ _).2 (noDict_int _), ?_⟩
  refine (noDict_flatten_cons _ _).2 ⟨(noDict_attr _ _).2 (noDict_int _), ?_⟩
  refine (noDict_flatten_cons _ _).2 ⟨(noDict_attr _ _).2 (noDict_int _), ?_⟩
  refine (noDict_flatten_cons _ _).2 ⟨(noDict_attr _ _).2 (noDict_list _ _ fun y => noDict_int _), ?_⟩
  simp [noDictInValues]

theorem RealTimeTransportProtocol.HeaderExtension.toPy_noDict (x : RealTimeTransportProtocol.HeaderExtension) : noDict x.toPy := by
  refine (noDict_object _ _).2 ?_
  refine (noDict_flatten_cons _ _).2 ⟨(noDict_attr _ _).2 (noDict_int _), ?_⟩
  refine (noDict_flatten_cons _ _).2 ⟨(noDict_attr _ _).2 (noDict_int _), ?_⟩
  refine (noDict_flatten_cons _ _).2 ⟨(noDict_attr _ _).2 (noDict_int _), ?_⟩
  refine (noDict_flatten_cons _ _).2 ⟨(noDict_attr _ _).2 (noDict_bool _), ?_⟩
  refine (noDict_flatten_cons _ _).2 ⟨(noDict_attr _ _).2 (RadioId.toPy_noDict x.source_id), ?_⟩
  refine (noDict_flatten_cons _ _).2 ⟨(noDict_attr _ _).2 (RadioId.toPy_noDict x.destination_id), ?_⟩
  refine (noDict_flatten_cons _ _).2 ⟨(noDict_attr _ _).2 (noDict_enum _ _), ?_⟩
  refine (noDict_flatten_cons _ _).2 ⟨(noDict_attr _ _).2 (noDict_bytes _), ?_⟩
  simp [noDictInValues]

theorem RealTimeTransportProtocol.toPy_noDict (x : RealTimeTransportProtocol) : noDict x.toPy := by
  refine (noDict_object _ _).2 ?_
  refine (noDict_flatten_cons _ _).2 ⟨(noDict_attr _ _).2 (RealTimeTransportProtocol.FixedHeader.toPy_noDict x.fixed_header), ?_⟩
  refine (noDict_flatten_cons _ _).2 ⟨noDict_optAttr _ _ _ fun y => RealTimeTransportProtocol.HeaderExtension.toPy_noDict y, ?_⟩
  refine (noDict_flatten_cons _ _).2 ⟨noDict_optAttr' _ _ (by intro v hv; split at hv <;> cases hv; exact noDict_int _), ?_⟩
  refine (noDict_flatten_cons _ _).2 ⟨(noDict_attr _ _).2 (noDict_int _), ?_⟩
  refine (noDict_flatten_cons _ _).2 ⟨(noDict_attr _ _).2 (noDict_bytes _), ?_⟩
  refine (noDict_flatten_cons _ _).2 ⟨noDict_optAttr _ _ _ fun y => noDict_bytes _, ?_⟩
  simp [noDictInValues]

end Dmr.Hytera

namespace Dmr.Etsi

theorem DmrCsbk.NegativeAckResponseData.toPy_noDict (x : DmrCsbk.NegativeAckResponseData) : noDict x.toPy := by
  refine (noDict_object _ _).2 ?_
  refine (noDict_flatten_cons _ _).2 ⟨(noDict_attr _ _).2 (noDict_bool _), ?_⟩
  refine (noDict_flatten_cons _ _).2 ⟨(noDict_attr _ _).2 (noDict_bool _), ?_⟩
  refine (noDict_flatten_cons _ _).2 ⟨(noDict_attr _ _).2 (noDict_int _), ?_⟩
  refine (noDict_flatten_cons _ _).2 ⟨(noDict_attr _ _).2 (noDict_int _), ?_⟩
  refine (noDict_flatten_cons _ _).2 ⟨(noDict_attr _ _).2 (noDict_int _), ?_⟩
  refine (noDict_flatten_cons _ _).2 ⟨(noDict_attr _ _).2 (noDict_int _), ?_⟩
  simp [noDictInValues]

theorem DmrCsbk.ServiceOptions.toPy_noDict (x : DmrCsbk.ServiceOptions) : noDict x.toPy := by
  refine (noDict_object _ _).2 ?_
  refine (noDict_flatten_cons _ _).2 ⟨(noDict_attr _ _).2 (noDict_bool _), ?_⟩
  refine (noDict_flatten_cons _ _).2 ⟨(noDict_attr _ _).2 (noDict_bool _), ?_⟩
  refine (noDict_flatten_cons _ _).2 ⟨(noDict_attr _ _).2 (noDict_int _), ?_⟩
  refine (noDict_flatten_cons _ _).2 ⟨(noDict_attr _ _).2 (noDict_bool _), ?_⟩
  refine (noDict_flatten_cons _ _).2 ⟨(noDict_attr _ _).2 (noDict_bool _), ?_⟩
  refine (noDict_flatten_cons _ _).2 ⟨(noDict_attr _ _).2 (noDict_int _), ?_⟩
  simp [noDictInValues]

theorem DmrCsbk.UnitToUnitVoiceRequestData.toPy_noDict (x : DmrCsbk.UnitToUnitVoiceRequestData) : noDict x.toPy := by
  refine (noDict_object _ _).2 ?_
  refine (noDict_flatten_cons _ _).2 ⟨(noDict_attr _ _).2 (DmrCsbk.ServiceOptions.toPy_noDict x.service_options), ?_⟩
  refine (noDict_flatten_cons _ _).2 ⟨(noDict_attr _ _).2 (noDict_int _), ?_⟩
  refine (noDict_flatten_cons _ _).2 ⟨(noDict_attr _ _).2 (noDict_int _), ?_⟩
  refine (noDict_flatten_cons _ _).2 ⟨(noDict_attr _ _).2 (noDict_int _), ?_⟩
  simp [noDictInValues]

theorem DmrCsbk.PreambleData.toPy_noDict (x : DmrCsbk.PreambleData) : noDict x.toPy := by
  refine (noDict_object _ _).2 ?_
  refine (noDict_flatten_cons _ _).2 ⟨(noDict_attr _ _).2 (noDict_enum _ _), ?_⟩
  refine (noDict_flatten_cons _ _).2 ⟨(noDict_attr _ _).2 (noDict_enum _ _), ?_⟩
  refine (noDict_flatten_cons _ _).2 ⟨(noDict_attr _ _).2 (noDict_int _), ?_⟩
  refine (noDict_flatten_cons _ _).2 ⟨(noDict_attr _ _).2 (noDict_int _), ?_⟩
  refine (noDict_flatten_cons _ _).2 ⟨(noDict_attr _ _).2 (noDict_int _), ?_⟩
  refine (noDict_flatten_cons _ _).2 ⟨(noDict_attr _ _).2 (noDict_int _), ?_⟩
  simp [noDictInValues]

theorem DmrCsbk.ChannelTimingData.toPy_noDict (x : DmrCsbk.ChannelTimingData) : noDict x.toPy := by
  refine (noDict_object _ _).2 ?_
  refine (noDict_flatten_cons _ _).2 ⟨(noDict_attr _ _).2 (noDict_int _), ?_⟩
  refine (noDict_flatten_cons _ _).2 ⟨(noDict_attr _ _).2 (noDict_int _), ?_⟩
  refine (noDict_flatten_cons _ _).2 ⟨(noDict_attr _ _).2 (noDict_int _), ?_⟩
  refine (noDict_flatten_cons _ _).2 ⟨(noDict_attr _ _).2 (noDict_bool _), ?_⟩
  refine (noDict_flatten_cons _ _).2 ⟨(noDict_attr _ _).2 (noDict_int _), ?_⟩
  refine (noDict_flatten_cons _ _).2 ⟨(noDict_attr _ _).2 (noDict_bool _), ?_⟩
  refine (noDict_flatten_cons _ _).2 ⟨(noDict_attr _ _).2 (noDict_int _), ?_⟩
  refine (noDict_flatten_cons _ _).2 ⟨(noDict_attr _ _).2 (noDict_bool _), ?_⟩
  refine (noDict_flatten_cons _ _).2 ⟨(noDict_attr _ _).2 (noDict_int _), ?_⟩
  refine (noDict_flatten_cons _ _).2 ⟨(noDict_attr _ _).2 (noDict_bool _), ?_⟩
  simp [noDictInValues]

theorem DmrCsbk.BsOutboundActivationData.toPy_noDict (x : DmrCsbk.BsOutboundActivationData) : noDict x.toPy := by
  refine (noDict_object _ _).2 ?_
  refine (noDict_flatten_cons _ _).2 ⟨(noDict_attr _ _).2 (noDict_int _), ?_⟩
  refine (noDict_flatten_cons _ _).2 ⟨(noDict_attr _ _).2 (noDict_int _), ?_⟩
  refine (noDict_flatten_cons _ _).2 ⟨(noDict_attr _ _).2 (noDict_int _), ?_⟩
  simp [noDictInValues]

theorem DmrCsbk.UnitToUnitVoiceAnswerData.toPy_noDict (x : DmrCsbk.UnitToUnitVoiceAnswerData) : noDict x.toPy := by
  refine (noDict_object _ _).2 ?_
  refine (noDict_flatten_cons _ _).2 ⟨(noDict_attr _ _).2 (DmrCsbk.ServiceOptions.toPy_noDict x.service_options), ?_⟩
  refine (noDict_flatten_cons _ _).2 ⟨(noDict_attr _ _).2 (noDict_enum _ _), ?_⟩
  refine (noDict_flatten_cons _ _).2 ⟨(noDict_attr _ _).2 (noDict_int _), ?_⟩
  refine (noDict_flatten_cons _ _).2 ⟨(noDict_attr _ _).2 (noDict_int _), ?_⟩
  simp [noDictInValues]

theorem DmrCsbk.CsbkDataUnion.toPy_noDict (x : DmrCsbk.CsbkDataUnion) : noDict x.toPy := by
  cases x with
  | unitToUnitVoiceAnswerData x => exact DmrCsbk.UnitToUnitVoiceAnswerData.toPy_noDict x
  | preambleData x => exact DmrCsbk.PreambleData.toPy_noDict x
  | channelTimingData x => exact DmrCsbk.ChannelTimingData.toPy_noDict x
  | unitToUnitVoiceRequestData x => exact DmrCsbk.UnitToUnitVoiceRequestData.toPy_noDict x
  | bsOutboundActivationData x => exact DmrCsbk.BsOutboundActivationData.toPy_noDict x
  | negativeAckResponseData x => exact DmrCsbk.NegativeAckResponseData.toPy_noDict x

theorem DmrCsbk.toPy_noDict (x : DmrCsbk) : noDict x.toPy := by
  refine (noDict_object _ _).2 ?_
  refine (noDict_flatten_cons _ _).2 ⟨(noDict_attr _ _).2 (noDict_bool _), ?_⟩
  refine (noDict_flatten_cons _ _).2 ⟨(noDict_attr _ _).2 (noDict_bool _), ?_⟩
  refine (noDict_flatten_cons _ _).2 ⟨(noDict_attr _ _).2 (noDict_enum _ _), ?_⟩
  refine (noDict_flatten_cons _ _).2 ⟨(noDict_attr _ _).2 (noDict_int _), ?_⟩
  refine (noDict_flatten_cons _ _).2 ⟨noDict_optAttr _ _ _ fun y => DmrCsbk.CsbkDataUnion.toPy_noDict y, ?_⟩
  simp [noDictInValues]

theorem DmrData.Rate1LastBlockUnconfirmed.toPy_noDict (x : DmrData.Rate1LastBlockUnconfirmed) : noDict x.toPy := by
  refine (noDict_object _ _).2 ?_
  refine (noDict_flatten_cons _ _).2 ⟨(noDict_attr _ _).2 (noDict_bytes _), ?_⟩
  refine (noDict_flatten_cons _ _).2 ⟨(noDict_attr _ _).2 (noDict_bytes _), ?_⟩
  simp [noDictInValues]

theorem DmrData.Rate12LastBlockConfirmed.toPy_noDict (x : DmrData.Rate12LastBlockConfirmed) : noDict x.toPy := by
  refine (noDict_object _ _).2 ?_
  refine (noDict_flatten_cons _ _).2 ⟨(noDict_attr _ _).2 (noDict_int _), ?_⟩
  refine (noDict_flatten_cons _ _).2 ⟨(noDict_attr _ _).2 (noDict_int _), ?_⟩
  refine (noDict_flatten_cons _ _).2 ⟨(noDict_attr _ _).2 (noDict_bytes _), ?_⟩
  refine (noDict_flatten_cons _ _).2 ⟨(noDict_attr _ _).2 (noDict_bytes _), ?_⟩
  simp [noDictInValues]

theorem DmrData.Rate12Confirmed.toPy_noDict (x : DmrData.Rate12Confirmed) : noDict x.toPy := by
  refine (noDict_object _ _).2 ?_
  refine (noDict_flatten_cons _ _).2 ⟨(noDict_attr _ _).2 (noDict_int _), ?_⟩
  refine (noDict_flatten_cons _ _).2 ⟨(noDict_attr _ _).2 (noDict_int _), ?_⟩
  refine (noDict_flatten_cons _ _).2 ⟨(noDict_attr _ _).2 (noDict_bytes _), ?_⟩
  simp [noDictInValues]

theorem DmrData.Rate34LastBlockUnconfirmed.toPy_noDict (x : DmrData.Rate34LastBlockUnconfirmed) : noDict x.toPy := by
  refine (noDict_object _ _).2 ?_
  refine (noDict_flatten_cons _ _).2 ⟨(noDict_attr _ _).2 (noDict_bytes _), ?_⟩
  refine (noDict_flatten_cons _ _).2 ⟨(noDict_attr _ _).2 (noDict_bytes _), ?_⟩
  simp [noDictInValues]

theorem DmrData.Rate1LastBlockConfirmed.toPy_noDict (x : DmrData.Rate1LastBlockConfirmed) : noDict x.toPy := by
  refine (noDict_object _ _).2 ?_
  refine (noDict_flatten_cons _ _).2 ⟨(noDict_attr _ _).2 (noDict_int _), ?_⟩
  refine (noDict_flatten_cons _ _).2 ⟨(noDict_attr _ _).2 (noDict_int _), ?_⟩
  refine (noDict_flatten_cons _ _).2 ⟨(noDict_attr _ _).2 (noDict_bytes _), ?_⟩
  refine (noDict_flatten_cons _ _).2 ⟨(noDict_attr _ _).2 (noDict_bytes _), ?_⟩
  simp [noDictInValues]

theorem DmrData.Rate1Unconfirmed.toPy_noDict (x : DmrData.Rate1Unconfirmed) : noDict x.toPy := by
  refine (noDict_object _ _).2 ?_
  refine (noDict_flatten_cons _ _).2 ⟨(noDict_attr _ _).2 (noDict_bytes _), ?_⟩
  simp [noDictInValues]

theorem DmrData.UdtLastBlock.toPy_noDict (x : DmrData.UdtLastBlock) : noDict x.toPy := by
  refine (noDict_object _ _).2 ?_
  refine (noDict_flatten_cons _ _).2 ⟨(noDict_attr _ _).2 (noDict_bytes _), ?_⟩
  refine (noDict_flatten_cons _ _).2 ⟨(noDict_attr _ _).2 (noDict_bytes _), ?_⟩
  simp [noDictInValues]

theorem DmrData.Rate34Confirmed.toPy_noDict (x : DmrData.Rate34Confirmed) : noDict x.toPy := by
  refine (noDict_object _ _).2 ?_
  refine (noDict_flatten_cons _ _).2 ⟨(noDict_attr _ _).2 (noDict_int _), ?_⟩
  refine (noDict_flatten_cons _ _).2 ⟨(noDict_attr _ _).2 (noDict_int _), ?_⟩
  refine (noDict_flatten_cons _ _).2 ⟨(noDict_attr _ _).2 (noDict_bytes _), ?_⟩
  simp [noDictInValues]

theorem DmrData.Rate34LastBlockConfirmed.toPy_noDict (x : DmrData.Rate34LastBlockConfirmed) : noDict x.toPy := by
  refine (noDict_object _ _).2 ?_
  refine (noDict_flatten_cons _ _).2 ⟨(noDict_attr _ _).2 (noDict_int _), ?_⟩
  refine (noDict_flatten_cons _ _).2 ⟨(noDict_attr _ _).2 (noDict_int _), ?_⟩
  refine (noDict_flatten_cons _ _).2 ⟨(noDict_attr _ _).2 (noDict_bytes _), ?_⟩
  refine (noDict_flatten_cons _ _).2 ⟨(noDict_attr _ _).2 (noDict_bytes _), ?_⟩
  simp [noDictInValues]

theorem DmrData.Rate34Unconfirmed.toPy_noDict (x : DmrData.Rate34Unconfirmed) : noDict x.toPy := by
  refine (noDict_object _ _).2 ?_
  refine (noDict_flatten_cons _ _).2 ⟨(noDict_attr _ _).2 (noDict_bytes _), ?_⟩
  simp [noDictInValues]

theorem DmrData.Rate12LastBlockUnconfirmed.toPy_noDict (x : DmrData.Rate12LastBlockUnconfirmed) : noDict x.toPy := by
  refine (noDict_object _ _).2 ?_
  refine (noDict_flatten_cons _ _).2 ⟨(noDict_attr _ _).2 (noDict_bytes _), ?_⟩
  refine (noDict_flatten_cons _ _).2 ⟨(noDict_attr _ _).2 (noDict_bytes _), ?_⟩
  simp [noDictInValues]

theorem DmrData.Rate1Confirmed.toPy_noDict (x : DmrData.Rate1Confirmed) : noDict x.toPy := by
  refine (noDict_object _ _).2 ?_
  refine (noDict_flatten_cons _ _).2 ⟨(noDict_attr _ _).2 (noDict_int _), ?_⟩
  refine (noDict_flatten_cons _ _).2 ⟨(noDict_attr _ _).2 (noDict_int _), ?_⟩
  refine (noDict_flatten_cons _ _).2 ⟨(noDict_attr _ _).2 (noDict_bytes _), ?_⟩
  simp [noDictInValues]

theorem DmrData.Rate12Unconfirmed.toPy_noDict (x : DmrData.Rate12Unconfirmed) : noDict x.toPy := by
  refine (noDict_object _ _).2 ?_
  refine (noDict_flatten_cons _ _).2 ⟨(noDict_attr _ _).2 (noDict_bytes _), ?_⟩
  simp [noDictInValues]

theorem DmrData.toPy_noDict (x : DmrData) : noDict x.toPy := by
  refine (noDict_object _ _).2 ?_
  simp [noDictInValues]

theorem DmrDataHeader.DataHeaderShortRaw.toPy_noDict (x : DmrDataHeader.DataHeaderShortRaw) : noDict x.toPy := by
  refine (noDict_object _ _).2 ?_
  refine (noDict_flatten_cons _ _).2 ⟨(noDict_attr _ _).2 (noDict_bool _), ?_⟩
  refine (noDict_flatten_cons _ _).2 ⟨(noDict_attr _ _).2 (noDict_bool _), ?_⟩
  refine (noDict_flatten_cons _ _).2 ⟨(noDict_attr _ _).2 (noDict_int _), ?_⟩
  refine (noDict_flatten_cons _ _).2 ⟨(noDict_attr _ _).2 (noDict_enum _ _), ?_⟩
  refine (noDict_flatten_cons _ _).2 ⟨(noDict_attr _ _).2 (noDict_enum _ _), ?_⟩
  refine (noDict_flatten_cons _ _).2 ⟨(noDict_attr _ _).2 (noDict_int _), ?_⟩
  refine (noDict_flatten_cons _ _).2 ⟨(noDict_attr _ _).2 (noDict_int _), ?_⟩
  refine (noDict_flatten_cons _ _).2 ⟨(noDict_attr _ _).2 (noDict_int _), ?_⟩
  refine (noDict_flatten_cons _ _).2 ⟨(noDict_attr _ _).2 (noDict_int _), ?_⟩
  refine (noDict_flatten_cons _ _).2 ⟨(noDict_attr _ _).2 (noDict_int _), ?_⟩
  refine (noDict_flatten_cons _ _).2 ⟨(noDict_attr _ _).2 (noDict_bool _), ?_⟩
  refine (noDict_flatten_cons _ _).2 ⟨(noDict_attr _ _).2 (noDict_bool _), ?_⟩
  refine (noDict_flatten_cons _ _).2 ⟨(noDict_attr _ _).2 (noDict_int _), ?_⟩
  refine (noDict_flatten_cons _ _).2 ⟨(noDict_attr _ _).2 (noDict_bytes _), ?_⟩
  simp [noDictInValues]

theorem DmrDataHeader.DataHeaderProprietary.toPy_noDict (x : DmrDataHeader.DataHeaderProprietary) : noDict x.toPy := by
  refine (noDict_object _ _).2 ?_
  refine (noDict_flatten_cons _ _).2 ⟨(noDict_attr _ _).2 (noDict_enum _ _), ?_⟩
  refine (noDict_flatten_cons _ _).2 ⟨(noDict_attr _ _).2 (noDict_enum _ _), ?_⟩
  refine (noDict_flatten_cons _ _).2 ⟨(noDict_attr _ _).2 (noDict_int _), ?_⟩
  refine (noDict_flatten_cons _ _).2 ⟨(noDict_attr _ _).2 (noDict_bytes _), ?_⟩
  refine (noDict_flatten_cons _ _).2 ⟨(noDict_attr _ _).2 (noDict_bytes _), ?_⟩
  simp [noDictInValues]

theorem DmrDataHeader.DataHeaderUndefined.toPy_noDict (x : DmrDataHeader.DataHeaderUndefined) : noDict x.toPy := by
  refine (noDict_object _ _).2 ?_
  refine (noDict_flatten_cons _ _).2 ⟨(noDict_attr _ _).2 (noDict_bytes _), ?_⟩
  simp [noDictInValues]

theorem DmrDataHeader.DataHeaderShortStatusPrecoded.toPy_noDict (x : DmrDataHeader.DataHeaderShortStatusPrecoded) : noDict x.toPy := by
  refine (noDict_object _ _).2 ?_
  refine (noDict_flatten_cons _ _).2 ⟨(noDict_attr _ _).2 (noDict_bool _), ?_⟩
  refine (noDict_flatten_cons _ _).2 ⟨(noDict_attr _ _).2 (noDict_bool _), ?_⟩
  refine (noDict_flatten_cons _ _).2 ⟨(noDict_attr _ _).2 (noDict_int _), ?_⟩
  refine (noDict_flatten_cons _ _).2 ⟨(noDict_attr _ _).2 (noDict_enum _ _), ?_⟩
  refine (noDict_flatten_cons _ _).2 ⟨(noDict_attr _ _).2 (noDict_enum _ _), ?_⟩
  refine (noDict_flatten_cons _ _).2 ⟨(noDict_attr _ _).2 (noDict_int _), ?_⟩
  refine (noDict_flatten_cons _ _).2 ⟨(noDict_attr _ _).2 (noDict_int _), ?_⟩
  refine (noDict_flatten_cons _ _).2 ⟨(noDict_attr _ _).2 (noDict_int _), ?_⟩
  refine (noDict_flatten_cons _ _).2 ⟨(noDict_attr _ _).2 (noDict_int _), ?_⟩
  refine (noDict_flatten_cons _ _).2 ⟨(noDict_attr _ _).2 (noDict_int _), ?_⟩
  refine (noDict_flatten_cons _ _).2 ⟨(noDict_attr _ _).2 (noDict_int _), ?_⟩
  refine (noDict_flatten_cons _ _).2 ⟨(noDict_attr _ _).2 (noDict_bytes _), ?_⟩
  simp [noDictInValues]

theorem DmrDataHeader.DataHeaderResponse.toPy_noDict (x : DmrDataHeader.DataHeaderResponse) : noDict x.toPy := by
  refine (noDict_object _ _).2 ?_
  refine (noDict_flatten_cons _ _).2 ⟨(noDict_attr _ _).2 (noDict_bool _), ?_⟩
  refine (noDict_flatten_cons _ _).2 ⟨(noDict_attr _ _).2 (noDict_bool _), ?_⟩
  refine (noDict_flatten_cons _ _).2 ⟨(noDict_attr _ _).2 (noDict_int _), ?_⟩
  refine (noDict_flatten_cons _ _).2 ⟨(noDict_attr _ _).2 (noDict_enum _ _), ?_⟩
  refine (noDict_flatten_cons _ _).2 ⟨(noDict_attr _ _).2 (noDict_enum _ _), ?_⟩
  refine (noDict_flatten_cons _ _).2 ⟨(noDict_attr _ _).2 (noDict_int _), ?_⟩
  refine (noDict_flatten_cons _ _).2 ⟨(noDict_attr _ _).2 (noDict_int _), ?_⟩
  refine (noDict_flatten_cons _ _).2 ⟨(noDict_attr _ _).2 (noDict_int _), ?_⟩
  refine (noDict_flatten_cons _ _).2 ⟨(noDict_attr _ _).2 (noDict_bool _), ?_⟩
  refine (noDict_flatten_cons _ _).2 ⟨(noDict_attr _ _).2 (noDict_int _), ?_⟩
  refine (noDict_flatten_cons _ _).2 ⟨(noDict_attr _ _).2 (noDict_enum _ _), ?_⟩
  refine (noDict_flatten_cons _ _).2 ⟨(noDict_attr _ _).2 (noDict_int _), ?_⟩
  refine (noDict_flatten_cons _ _).2 ⟨(noDict_attr _ _).2 (noDict_int _), ?_⟩
  refine (noDict_flatten_cons _ _).2 ⟨(noDict_attr _ _).2 (noDict_bytes _), ?_⟩
  simp [noDictInValues]

theorem DmrDataHeader.DataHeaderConfirmed.toPy_noDict (x : DmrDataHeader.DataHeaderConfirmed) : noDict x.toPy := by
  refine (noDict_object _ _).2 ?_
  refine (noDict_flatten_cons _ _).2 ⟨(noDict_attr _ _).2 (noDict_bool _), ?_⟩
  refine (noDict_flatten_cons _ _).2 ⟨(noDict_attr _ _).2 (noDict_bool _), ?_⟩
  refine (noDict_flatten_cons _ _).2 ⟨(noDict_attr _ _).2 (noDict_bool _), ?_⟩
  refine (noDict_flatten_cons _ _).2 ⟨(noDict_attr _ _).2 (noDict_bool _), ?_⟩
  refine (noDict_flatten_cons _ _).2 ⟨(noDict_attr _ _).2 (noDict_enum _ _), ?_⟩
  refine (noDict_flatten_cons _ _).2 ⟨(noDict_attr _ _).2 (noDict_enum _ _), ?_⟩
  refine (noDict_flatten_cons _ _).2 ⟨(noDict_attr _ _).2 (noDict_int _), ?_⟩
  refine (noDict_flatten_cons _ _).2 ⟨(noDict_attr _ _).2 (noDict_int _), ?_⟩
  refine (noDict_flatten_cons _ _).2 ⟨(noDict_attr _ _).2 (noDict_int _), ?_⟩
  refine (noDict_flatten_cons _ _).2 ⟨(noDict_attr _ _).2 (noDict_bool _), ?_⟩
  refine (noDict_flatten_cons _ _).2 ⟨(noDict_attr _ _).2 (noDict_int _), ?_⟩
  refine (noDict_flatten_cons _ _).2 ⟨(noDict_attr _ _).2 (noDict_bool _), ?_⟩
  refine (noDict_flatten_cons _ _).2 ⟨(noDict_attr _ _).2 (noDict_int _), ?_⟩
  refine (noDict_flatten_cons _ _).2 ⟨(noDict_attr _ _).2 (noDict_int _), ?_⟩
  refine (noDict_flatten_cons _ _).2 ⟨(noDict_attr _ _).2 (noDict_bytes _), ?_⟩
  simp [noDictInValues]

theorem DmrDataHeader.DataHeaderUnconfirmed.toPy_noDict (x : DmrDataHeader.DataHeaderUnconfirmed) : noDict x.toPy := by
  refine (noDict_object _ _).2 ?_
  refine (noDict_flatten_cons _ _).2 ⟨(noDict_attr _ _).2 (noDict_bool _), ?_⟩
  refine (noDict_flatten_cons _ _).2 ⟨(noDict_attr _ _).2 (noDict_bool _), ?_⟩
  refine (noDict_flatten_cons _ _).2 ⟨(noDict_attr _ _).2 (noDict_bool _), ?_⟩
  refine (noDict_flatten_cons _ _).2 ⟨(noDict_attr _ _).2 (noDict_bool _), ?_⟩
  refine (noDict_flatten_cons _ _).2 ⟨(noDict_attr _ _).2 (noDict_enum _ _), ?_⟩
  refine (noDict_flatten_cons _ _).2 ⟨(noDict_attr _ _).2 (noDict_enum _ _), ?_⟩
  refine (noDict_flatten_cons _ _).2 ⟨(noDict_attr _ _).2 (noDict_int _), ?_⟩
  refine (noDict_flatten_cons _ _).2 ⟨(noDict_attr _ _).2 (noDict_int _), ?_⟩
  refine (noDict_flatten_cons _ _).2 ⟨(noDict_attr _ _).2 (noDict_int _), ?_⟩
  refine (noDict_flatten_cons _ _).2 ⟨(noDict_attr _ _).2 (noDict_bool _), ?_⟩
  refine (noDict_flatten_cons _ _).2 ⟨(noDict_attr _ _).2 (noDict_int _), ?_⟩
  refine (noDict_flatten_cons _ _).2 ⟨(noDict_attr _ _).2 (noDict_int _), ?_⟩
  refine (noDict_flatten_cons _ _).2 ⟨(noDict_attr _ _).2 (noDict_int _), ?_⟩
  refine (noDict_flatten_cons _ _).2 ⟨(noDict_attr _ _).2 (noDict_bytes _), ?_⟩
  simp [noDictInValues]

theorem DmrDataHeader.DataHeaderShortDefined.toPy_noDict (x : DmrDataHeader.DataHeaderShortDefined) : noDict x.toPy := by
  refine (noDict_object _ _).2 ?_
  refine (noDict_flatten_cons _ _).2 ⟨(noDict_attr _ _).2 (noDict_bool _), ?_⟩
  refine (noDict_flatten_cons _ _).2 ⟨(noDict_attr _ _).2 (noDict_bool _), ?_⟩
  refine (noDict_flatten_cons _ _).2 ⟨(noDict_attr _ _).2 (noDict_int _), ?_⟩
  refine (noDict_flatten_cons _ _).2 ⟨(noDict_attr _ _).2 (noDict_enum _ _), ?_⟩
  refine (noDict_flatten_cons _ _).2 ⟨(noDict_attr _ _).2 (noDict_enum _ _), ?_⟩
  refine (noDict_flatten_cons _ _).2 ⟨(noDict_attr _ _).2 (noDict_int _), ?_⟩
  refine (noDict_flatten_cons _ _).2 ⟨(noDict_attr _ _).2 (noDict_int _), ?_⟩
  refine (noDict_flatten_cons _ _).2 ⟨(noDict_attr _ _).2 (noDict_int _), ?_⟩
  refine (noDict_flatten_cons _ _).2 ⟨(noDict_attr _ _).2 (noDict_enum _ _), ?_⟩
  refine (noDict_flatten_cons _ _).2 ⟨(noDict_attr _ _).2 (noDict_bool _), ?_⟩
  refine (noDict_flatten_cons _ _).2 ⟨(noDict_attr _ _).2 (noDict_bool _), ?_⟩
  refine (noDict_flatten_cons _ _).2 ⟨(noDict_attr _ _).2 (noDict_int _), ?_⟩
  refine (noDict_flatten_cons _ _).2 ⟨(noDict_attr _ _).2 (noDict_bytes _), ?_⟩
  simp [noDictInValues]

theorem DmrDataHeader.DataHeaderUdt.toPy_noDict (x : DmrDataHeader.DataHeaderUdt) : noDict x.toPy := by
  refine (noDict_object _ _).2 ?_
  refine (noDict_flatten_cons _ _).2 ⟨(noDict_attr _ _).2 (noDict_bool _), ?_⟩
  refine (noDict_flatten_cons _ _).2 ⟨(noDict_attr _ _).2 (noDict_bool _), ?_⟩
  refine (noDict_flatten_cons _ _).2 ⟨(noDict_attr _ _).2 (noDict_int _), ?_⟩
  refine (noDict_flatten_cons _ _).2 ⟨(noDict_attr _ _).2 (noDict_enum _ _), ?_⟩
  refine (noDict_flatten_cons _ _).2 ⟨(noDict_attr _ _).2 (noDict_enum _ _), ?_⟩
  refine (noDict_flatten_cons _ _).2 ⟨(noDict_attr _ _).2 (noDict_enum _ _), ?_⟩
  refine (noDict_flatten_cons _ _).2 ⟨(noDict_attr _ _).2 (noDict_int _), ?_⟩
  refine (noDict_flatten_cons _ _).2 ⟨(noDict_attr _ _).2 (noDict_int _), ?_⟩
  refine (noDict_flatten_cons _ _).2 ⟨(noDict_attr _ _).2 (noDict_int _), ?_⟩
  refine (noDict_flatten_cons _ _).2 ⟨(noDict_attr _ _).2 (noDict_bool _), ?_⟩
  refine (noDict_flatten_cons _ _).2 ⟨(noDict_attr _ _).2 (noDict_int _), ?_⟩
  refine (noDict_flatten_cons _ _).2 ⟨(noDict_attr _ _).2 (noDict_bool _), ?_⟩
  refine (noDict_flatten_cons _ _).2 ⟨(noDict_attr _ _).2 (noDict_bool _), ?_⟩
  refine (noDict_flatten_cons _ _).2 ⟨(noDict_attr _ _).2 (noDict_enum _ _), ?_⟩
  refine (noDict_flatten_cons _ _).2 ⟨(noDict_attr _ _).2 (noDict_bytes _), ?_⟩
  simp [noDictInValues]

theorem DmrDataHeader.toPy_noDict (x : DmrDataHeader) : noDict x.toPy := by
  refine (noDict_object _ _).2 ?_
  refine (noDict_flatten_cons _ _).2 ⟨(noDict_attr _ _).2 (noDict_int _), ?_⟩
  refine (noDict_flatten_cons _ _).2 ⟨(noDict_attr _ _).2 (noDict_enum _ _), ?_⟩
  simp [noDictInValues]

theorem DmrDataHeader.DataUnion.toPy_noDict (x : DmrDataHeader.DataUnion) : noDict x.toPy := by
  cases x with
  | dataHeaderProprietary x => exact DmrDataHeader.DataHeaderProprietary.toPy_noDict x
  | dataHeaderShortDefined x => exact DmrDataHeader.DataHeaderShortDefined.toPy_noDict x
  | dataHeaderUnconfirmed x => exact DmrDataHeader.DataHeaderUnconfirmed.toPy_noDict x
  | dataHeaderConfirmed x => exact DmrDataHeader.DataHeaderConfirmed.toPy_noDict x
  | dataHeaderUdt x => exact DmrDataHeader.DataHeaderUdt.toPy_noDict x
  | dataHeaderShortStatusPrecoded x => exact DmrDataHeader.DataHeaderShortStatusPrecoded.toPy_noDict x
  | dataHeaderResponse x => exact DmrDataHeader.DataHeaderResponse.toPy_noDict x
  | dataHeaderUndefined x => exact DmrDataHeader.DataHeaderUndefined.toPy_noDict x

theorem DmrIpUdp.UdpIpv4CompressedHeader.toPy_noDict (x : DmrIpUdp.UdpIpv4CompressedHeader) : noDict x.toPy := by
  refine (noDict_object _ _).2 ?_
  refine (noDict_flatten_cons _ _).2 ⟨(noDict_attr _ _).2 (noDict_bytes _), ?_⟩
  refine (noDict_flatten_cons _ _).2 ⟨(noDict_attr _ _).2 (noDict_enum _ _), ?_⟩
  refine (noDict_flatten_cons _ _).2 ⟨(noDict_attr _ _).2 (noDict_enum _ _), ?_⟩
  refine (noDict_flatten_cons _ _).2 ⟨(noDict_attr _ _).2 (noDict_bool _), ?_⟩
  refine (noDict_flatten_cons _ _).2 ⟨(noDict_attr _ _).2 (noDict_enum _ _), ?_⟩
  refine (noDict_flatten_cons _ _).2 ⟨(noDict_attr _ _).2 (noDict_bool _), ?_⟩
  refine (noDict_flatten_cons _ _).2 ⟨(noDict_attr _ _).2 (noDict_enum _ _), ?_⟩
  refine (noDict_flatten_cons _ _).2 ⟨noDict_optAttr _ _ _ fun y => noDict_bytes _, ?_⟩
  refine (noDict_flatten_cons _ _).2 ⟨noDict_optAttr _ _ _ fun y => noDict_bytes _, ?_⟩
  refine (noDict_flatten_cons _ _).2 ⟨(noDict_attr _ _).2 (noDict_bytes _), ?_⟩
  simp [noDictInValues]

theorem DmrIpUdp.toPy_noDict (x : DmrIpUdp) : noDict x.toPy := by
  refine (noDict_object _ _).2 ?_
  simp [noDictInValues]

theorem FullLinkControl.GpsInfoLcPdu.toPy_noDict (x : FullLinkControl.GpsInfoLcPdu) : noDict x.toPy := by
  refine (noDict_object _ _).2 ?_
  refine (noDict_flatten_cons _ _).2 ⟨(noDict_attr _ _).2 (noDict_int _), ?_⟩
  refine (noDict_flatten_cons _ _).2 ⟨(noDict_attr _ _).2 (noDict_enum _ _), ?_⟩
  refine (noDict_flatten_cons _ _).2 ⟨(noDict_attr _ _).2 (noDict_int _), ?_⟩
  refine (noDict_flatten_cons _ _).2 ⟨(noDict_attr _ _).2 (noDict_int _), ?_⟩
  simp [noDictInValues]

theorem FullLinkControl.GroupVoiceChannelUser.toPy_noDict (x : FullLinkControl.GroupVoiceChannelUser) : noDict x.toPy := by
  refine (noDict_object _ _).2 ?_
  refine (noDict_flatten_cons _ _).2 ⟨(noDict_attr _ _).2 (noDict_int _), ?_⟩
  refine (noDict_flatten_cons _ _).2 ⟨(noDict_attr _ _).2 (noDict_int _), ?_⟩
  refine (noDict_flatten_cons _ _).2 ⟨(noDict_attr _ _).2 (noDict_int _), ?_⟩
  simp [noDictInValues]

theorem FullLinkControl.UnitToUnitVoiceChannelUser.toPy_noDict (x : FullLinkControl.UnitToUnitVoiceChannelUser) : noDict x.toPy := by
  refine (noDict_object _ _).2 ?_
  refine (noDict_flatten_cons _ _).2 ⟨(noDict_attr _ _).2 (noDict_int _), ?_⟩
  refine (noDict_flatten_cons _ _).2 ⟨(noDict_attr _ _).2 (noDict_int _), ?_⟩
  refine (noDict_flatten_cons _ _).2 ⟨(noDict_attr _ _).2 (noDict_int _), ?_⟩
  simp [noDictInValues]

theorem FullLinkControl.TalkerAliasHeader.toPy_noDict (x : FullLinkControl.TalkerAliasHeader) : noDict x.toPy := by
  refine (noDict_object _ _).2 ?_
  refine (noDict_flatten_cons _ _).2 ⟨(noDict_attr _ _).2 (noDict_enum _ _), ?_⟩
  refine (noDict_flatten_cons _ _).2 ⟨(noDict_attr _ _).2 (noDict_int _), ?_⟩
  refine (noDict_flatten_cons _ _).2 ⟨(noDict_attr _ _).2 (noDict_int _), ?_⟩
  simp [noDictInValues]

theorem FullLinkControl.TalkerAliasContinuation.toPy_noDict (x : FullLinkControl.TalkerAliasContinuation) : noDict x.toPy := by
  refine (noDict_object _ _).2 ?_
  refine (noDict_flatten_cons _ _).2 ⟨(noDict_attr _ _).2 (noDict_int _), ?_⟩
  simp [noDictInValues]

theorem FullLinkControl.SpecificDataUnion.toPy_noDict (x : FullLinkControl.SpecificDataUnion) : noDict x.toPy := by
  cases x with
  | talkerAliasHeader x => exact FullLinkControl.TalkerAliasHeader.toPy_noDict x
  | unitToUnitVoiceChannelUser x => exact FullLinkControl.UnitToUnitVoiceChannelUser.toPy_noDict x
  | groupVoiceChannelUser x => exact FullLinkControl.GroupVoiceChannelUser.toPy_noDict x
  | talkerAliasContinuation x => exact FullLinkControl.TalkerAliasContinuation.toPy_noDict x
  | gpsInfoLcPdu x => exact FullLinkControl.GpsInfoLcPdu.toPy_noDict x

theorem FullLinkControl.toPy_noDict (x : FullLinkControl) : noDict x.toPy := by
  refine (noDict_object _ _).2 ?_
  refine (noDict_flatten_cons _ _).2 ⟨(noDict_attr _ _).2 (noDict_bool _), ?_⟩
  refine (noDict_flatten_cons _ _).2 ⟨(noDict_attr _ _).2 (noDict_bool _), ?_⟩
  refine (noDict_flatten_cons _ _).2 ⟨(noDict_attr _ _).2 (noDict_enum _ _), ?_⟩
  refine (noDict_flatten_cons _ _).2 ⟨(noDict_attr _ _).2 (noDict_enum _ _), ?_⟩
  refine (noDict_flatten_cons _ _).2 ⟨noDict_optAttr _ _ _ fun y => FullLinkControl.SpecificDataUnion.toPy_noDict y, ?_⟩
  refine (noDict_flatten_cons _ _).2 ⟨noDict_optAttr _ _ _ fun y => noDict_bytes _, ?_⟩
  refine (noDict_flatten_cons _ _).2 ⟨noDict_optAttr _ _ _ fun y => noDict_int _, ?_⟩
  simp [noDictInValues]

end Dmr.Etsi

namespace Dmr.Homebrew

theorem Homebrew2015.TypeMasterPing.toPy_noDict (x : Homebrew2015.TypeMasterPing) : noDict x.toPy := by
  refine (noDict_object _ _).2 ?_
  refine (noDict_flatten_cons _ _).2 ⟨(noDict_attr _ _).2 (noDict_bytes _), ?_⟩
  refine (noDict_flatten_cons _ _).2 ⟨(noDict_attr _ _).2 (noDict_int _), ?_⟩
  simp [noDictInValues]

theorem Homebrew2015.TypeRepeaterPong.toPy_noDict (x : Homebrew2015.TypeRepeaterPong) : noDict x.toPy := by
  refine (noDict_object _ _).2 ?_
  refine (noDict_flatten_cons _ _).2 ⟨(noDict_attr _ _).2 (noDict_bytes _), ?_⟩
  refine (noDict_flatten_cons _ _).2 ⟨(noDict_attr _ _).2 (noDict_int _), ?_⟩
  simp [noDictInValues]

theorem Homebrew2015.TypeRepeaterClosing.toPy_noDict (x : Homebrew2015.TypeRepeaterClosing) : noDict x.toPy := by
  refine (noDict_object _ _).2 ?_
  refine (noDict_flatten_cons _ _).2 ⟨(noDict_attr _ _).2 (noDict_bytes _), ?_⟩
  refine (noDict_flatten_cons _ _).2 ⟨(noDict_attr _ _).2 (noDict_int _), ?_⟩
  simp [noDictInValues]

theorem Homebrew2015.TypeRepeaterConfiguration.toPy_noDict (x : Homebrew2015.TypeRepeaterConfiguration) : noDict x.toPy := by
  refine (noDict_object _ _).2 ?_
  refine (noDict_flatten_cons _ _).2 ⟨(noDict_attr _ _).2 (noDict_int _), ?_⟩
  refine (noDict_flatten_cons _ _).2 ⟨(noDict_attr _ _).2 (noDict_str _), ?_⟩
  refine (noDict_flatten_cons _ _).2 ⟨(noDict_attr _ _).2 (noDict_str _), ?_⟩
  refine (noDict_flatten_cons _ _).2 ⟨(noDict_attr _ _).2 (noDict_str _), ?_⟩
  refine (noDict_flatten_cons _ _).2 ⟨(noDict_attr _ _).2 (noDict_str _), ?_⟩
  refine (noDict_flatten_cons _ _).2 ⟨(noDict_attr _ _).2 (noDict_str _), ?_⟩
  refine (noDict_flatten_cons _ _).2 ⟨(noDict_attr _ _).2 (noDict_str _), ?_⟩
  refine (noDict_flatten_cons _ _).2 ⟨(noDict_attr _ _).2 (noDict_str _), ?_⟩
  refine (noDict_flatten_cons _ _).2 ⟨(noDict_attr _ _).2 (noDict_str _), ?_⟩
  refine (noDict_flatten_cons _ _).2 ⟨(noDict_attr _ _).2 (noDict_str _), ?_⟩
  refine (noDict_flatten_cons _ _).2 ⟨(noDict_attr _ _).2 (noDict_str _), ?_⟩
  refine (noDict_flatten_cons _ _).2 ⟨(noDict_attr _ _).2 (noDict_str _), ?_⟩
  refine (noDict_flatten_cons _ _).2 ⟨(noDict_attr _ _).2 (noDict_str _), ?_⟩
  refine (noDict_flatten_cons _ _).2 ⟨(noDict_attr _ _).2 (noDict_str _), ?_⟩
  refine (noDict_flatten_cons _ _).2 ⟨(noDict_attr _ _).2 (noDict_str _), ?_⟩
  simp [noDictInValues]

theorem Homebrew2015.TypeRepeaterConfigurationOrClosing.DataUnion.toPy_noDict (x : Homebrew2015.TypeRepeaterConfigurationOrClosing.DataUnion) : noDict x.toPy := by
  cases x with
  | typeRepeaterClosing x => exact Homebrew2015.TypeRepeaterClosing.toPy_noDict x
  | typeRepeaterConfiguration x => exact Homebrew2015.TypeRepeaterConfiguration.toPy_noDict x

theorem Homebrew2015.TypeRepeaterConfigurationOrClosing.toPy_noDict (x : Homebrew2015.TypeRepeaterConfigurationOrClosing) : noDict x.toPy := by
  refine (noDict_object _ _).2 ?_
  refine (noDict_flatten_cons _ _).2 ⟨(noDict_attr _ _).2 (Homebrew2015.TypeRepeaterConfigurationOrClosing.DataUnion.toPy_noDict x.data), ?_⟩
  simp [noDictInValues]

theorem Homebrew2015.TypeRepeaterLoginResponse.toPy_noDict (x : Homebrew2015.TypeRepeaterLoginResponse) : noDict x.toPy := by
  refine (noDict_object _ _).2 ?_
  refine (noDict_flatten_cons _ _).2 ⟨(noDict_attr _ _).2 (noDict_int _), ?_⟩
  refine (noDict_flatten_cons _ _).2 ⟨(noDict_attr _ _).2 (noDict_bytes _), ?_⟩
  simp [noDictInValues]

theorem Homebrew2015.TypeRepeaterLoginRequest.toPy_noDict (x : Homebrew2015.TypeRepeaterLoginRequest) : noDict x.toPy := by
  refine (noDict_object _ _).2 ?_
  refine (noDict_flatten_cons _ _).2 ⟨(noDict_attr _ _).2 (noDict_int _), ?_⟩
  simp [noDictInValues]

theorem Homebrew2015.TypeMasterNotAccept.toPy_noDict (x : Homebrew2015.TypeMasterNotAccept) : noDict x.toPy := by
  refine (noDict_object _ _).2 ?_
  refine (noDict_flatten_cons _ _).2 ⟨(noDict_attr _ _).2 (noDict_bytes _), ?_⟩
  refine (noDict_flatten_cons _ _).2 ⟨(noDict_attr _ _).2 (noDict_int _), ?_⟩
  simp [noDictInValues]

theorem Homebrew2015.TypeMasterRepeaterAck.toPy_noDict (x : Homebrew2015.TypeMasterRepeaterAck) : noDict x.toPy := by
  refine (noDict_object _ _).2 ?_
  refine (noDict_flatten_cons _ _).2 ⟨(noDict_attr _ _).2 (noDict_bytes _), ?_⟩
  refine (noDict_flatten_cons _ _).2 ⟨(noDict_attr _ _).2 (noDict_int _), ?_⟩
  refine (noDict_flatten_cons _ _).2 ⟨noDict_optAttr _ _ _ fun y => noDict_int _, ?_⟩
  simp [noDictInValues]

theorem Homebrew2015.TypeMasterClosing.toPy_noDict (x : Homebrew2015.TypeMasterClosing) : noDict x.toPy := by
  refine (noDict_object _ _).2 ?_
  refine (noDict_flatten_cons _ _).2 ⟨(noDict_attr _ _).2 (noDict_bytes _), ?_⟩
  refine (noDict_flatten_cons _ _).2 ⟨(noDict_attr _ _).2 (noDict_int _), ?_⟩
  simp [noDictInValues]

theorem Homebrew2015.TypeDmrData.toPy_noDict (x : Homebrew2015.TypeDmrData) : noDict x.toPy := by
  refine (noDict_object _ _).2 ?_
  refine (noDict_flatten_cons _ _).2 ⟨(noDict_attr _ _).2 (noDict_int _), ?_⟩
  refine (noDict_flatten_cons _ _).2 ⟨(noDict_attr _ _).2 (noDict_int _), ?_⟩
  refine (noDict_flatten_cons _ _).2 ⟨(noDict_attr _ _).2 (noDict_int _), ?_⟩
  refine (noDict_flatten_cons _ _).2 ⟨(noDict_attr _ _).2 (noDict_int _), ?_⟩
  refine (noDict_flatten_cons _ _).2 ⟨(noDict_attr _ _).2 (noDict_enum _ _), ?_⟩
  refine (noDict_flatten_cons _ _).2 ⟨(noDict_attr _ _).2 (noDict_enum _ _), ?_⟩
  refine (noDict_flatten_cons _ _).2 ⟨(noDict_attr _ _).2 (noDict_enum _ _), ?_⟩
  refine (noDict_flatten_cons _ _).2 ⟨(noDict_attr _ _).2 (noDict_int _), ?_⟩
  refine (noDict_flatten_cons _ _).2 ⟨(noDict_attr _ _).2 (noDict_int _), ?_⟩
  refine (noDict_flatten_cons _ _).2 ⟨(noDict_attr _ _).2 (noDict_bytes _), ?_⟩
  refine (noDict_flatten_cons _ _).2 ⟨noDict_optAttr _ _ _ fun y => noDict_int _, ?_⟩
  refine (noDict_flatten_cons _ _).2 ⟨noDict_optAttr _ _ _ fun y => noDict_int _, ?_⟩
  simp [noDictInValues]

theorem Homebrew2015.TypeRepeaterOptions.toPy_noDict (x : Homebrew2015.TypeRepeaterOptions) : noDict x.toPy := by
  refine (noDict_object _ _).2 ?_
  refine (noDict_flatten_cons _ _).2 ⟨(noDict_attr _ _).2 (noDict_int _), ?_⟩
  refine (noDict_flatten_cons _ _).2 ⟨(noDict_attr _ _).2 (noDict_str _), ?_⟩
  simp [noDictInValues]

theorem Homebrew2015.CommandDataUnion.toPy_noDict (x : Homebrew2015.CommandDataUnion) : noDict x.toPy := by
  cases x with
  | typeRepeaterLoginRequest x => exact Homebrew2015.TypeRepeaterLoginRequest.toPy_noDict x
  | typeMasterRepeaterAck x => exact Homebrew2015.TypeMasterRepeaterAck.toPy_noDict x
  | typeRepeaterLoginResponse x => exact Homebrew2015.TypeRepeaterLoginResponse.toPy_noDict x
  | typeRepeaterConfigurationOrClosing x => exact Homebrew2015.TypeRepeaterConfigurationOrClosing.toPy_noDict x
  | typeDmrData x => exact Homebrew2015.TypeDmrData.toPy_noDict x
  | typeMasterClosing x => exact Homebrew2015.TypeMasterClosing.toPy_noDict x
  | typeRepeaterPong x => exact Homebrew2015.TypeRepeaterPong.toPy_noDict x
  | typeMasterPing x => exact Homebrew2015.TypeMasterPing.toPy_noDict x
  | typeMasterNotAccept x => exact Homebrew2015.TypeMasterNotAccept.toPy_noDict x

theorem Homebrew2015.fifthLetter_noDict (o : Option Homebrew2015.CommandDataUnion) (v : PyVal)
    (h : o.bind Homebrew2015.CommandDataUnion.fifthLetter = some v) : noDict v := by
  cases o with
  | none => cases h
  | some u =>
    simp only [Option.bind_some] at h
    unfold Homebrew2015.CommandDataUnion.fifthLetter at h
    split at h <;> first | (cases h; exact noDict_str _) | cases h

theorem Homebrew2015.toPy_noDict (x : Homebrew2015) : noDict x.toPy := by
  refine (noDict_object _ _).2 ?_
  refine (noDict_flatten_cons _ _).2 ⟨(noDict_attr _ _).2 (noDict_str _), ?_⟩
  refine (noDict_flatten_cons _ _).2 ⟨noDict_optAttr' _ _ fun v hv => Homebrew2015.fifthLetter_noDict x.command_data v hv, ?_⟩
  refine (noDict_flatten_cons _ _).2 ⟨noDict_optAttr _ _ _ fun y => Homebrew2015.CommandDataUnion.toPy_noDict y, ?_⟩
  simp [noDictInValues]

theorem Mmdvm2020.TypeMasterPong.toPy_noDict (x : Mmdvm2020.TypeMasterPong) : noDict x.toPy := by
  refine (noDict_object _ _).2 ?_
  refine (noDict_flatten_cons _ _).2 ⟨(noDict_attr _ _).2 (noDict_bytes _), ?_⟩
  refine (noDict_flatten_cons _ _).2 ⟨(noDict_attr _ _).2 (noDict_int _), ?_⟩
  simp [noDictInValues]

theorem Mmdvm2020.TypeRadioPosition.toPy_noDict (x : Mmdvm2020.TypeRadioPosition) : noDict x.toPy := by
  refine (noDict_object _ _).2 ?_
  refine (noDict_flatten_cons _ _).2 ⟨(noDict_attr _ _).2 (noDict_int _), ?_⟩
  refine (noDict_flatten_cons _ _).2 ⟨(noDict_attr _ _).2 (noDict_int _), ?_⟩
  refine (noDict_flatten_cons _ _).2 ⟨(noDict_attr _ _).2 (noDict_enum _ _), ?_⟩
  refine (noDict_flatten_cons _ _).2 ⟨(noDict_attr _ _).2 (noDict_int _), ?_⟩
  refine (noDict_flatten_cons _ _).2 ⟨(noDict_attr _ _).2 (noDict_int _), ?_⟩
  simp [noDictInValues]

theorem Mmdvm2020.TypeTalkerAlias.toPy_noDict (x : Mmdvm2020.TypeTalkerAlias) : noDict x.toPy := by
  refine (noDict_object _ _).2 ?_
  refine (noDict_flatten_cons _ _).2 ⟨(noDict_attr _ _).2 (noDict_int _), ?_⟩
  refine (noDict_flatten_cons _ _).2 ⟨(noDict_attr _ _).2 (noDict_enum _ _), ?_⟩
  refine (noDict_flatten_cons _ _).2 ⟨(noDict_attr _ _).2 (noDict_str _), ?_⟩
  simp [noDictInValues]

theorem Mmdvm2020.TypeRepeaterClosing.toPy_noDict (x : Mmdvm2020.TypeRepeaterClosing) : noDict x.toPy := by
  refine (noDict_object _ _).2 ?_
  refine (noDict_flatten_cons _ _).2 ⟨(noDict_attr _ _).2 (noDict_bytes _), ?_⟩
  refine (noDict_flatten_cons _ _).2 ⟨(noDict_attr _ _).2 (noDict_int _), ?_⟩
  simp [noDictInValues]

theorem Mmdvm2020.TypeRepeaterConfiguration.toPy_noDict (x : Mmdvm2020.TypeRepeaterConfiguration) : noDict x.toPy := by
  refine (noDict_object _ _).2 ?_
  refine (noDict_flatten_cons _ _).2 ⟨(noDict_attr _ _).2 (noDict_int _), ?_⟩
  refine (noDict_flatten_cons _ _).2 ⟨(noDict_attr _ _).2 (noDict_str _), ?_⟩
  refine (noDict_flatten_cons _ _).2 ⟨(noDict_attr _ _).2 (noDict_str _), ?_⟩
  refine (noDict_flatten_cons _ _).2 ⟨(noDict_attr _ _).2 (noDict_str _), ?_⟩
  refine (noDict_flatten_cons _ _).2 ⟨(noDict_attr _ _).2 (noDict_str _), ?_⟩
  refine (noDict_flatten_cons _ _).2 ⟨(noDict_attr _ _).2 (noDict_str _), ?_⟩
  refine (noDict_flatten_cons _ _).2 ⟨(noDict_attr _ _).2 (noDict_str _), ?_⟩
  refine (noDict_flatten_cons _ _).2 ⟨(noDict_attr _ _).2 (noDict_str _), ?_⟩
  refine (noDict_flatten_cons _ _).2 ⟨(noDict_attr _ _).2 (noDict_str _), ?_⟩
  refine (noDict_flatten_cons _ _).2 ⟨(noDict_attr _ _).2 (noDict_str _), ?_⟩
  refine (noDict_flatten_cons _ _).2 ⟨(noDict_attr _ _).2 (noDict_str _), ?_⟩
  refine (noDict_flatten_cons _ _).2 ⟨(noDict_attr _ _).2 (noDict_str _), ?_⟩
  refine (noDict_flatten_cons _ _).2 ⟨(noDict_attr _ _).2 (noDict_str _), ?_⟩
  refine (noDict_flatten_cons _ _).2 ⟨(noDict_attr _ _).2 (noDict_str _), ?_⟩
  refine (noDict_flatten_cons _ _).2 ⟨(noDict_attr _ _).2 (noDict_str _), ?_⟩
  refine (noDict_flatten_cons _ _).2 ⟨(noDict_attr _ _).2 (noDict_str _), ?_⟩
  simp [noDictInValues]

theorem Mmdvm2020.TypeRepeaterConfigurationOrClosing.DataUnion.toPy_noDict (x : Mmdvm2020.TypeRepeaterConfigurationOrClosing.DataUnion) : noDict x.toPy := by
  cases x with
  | typeRepeaterClosing x => exact Mmdvm2020.TypeRepeaterClosing.toPy_noDict x
  | typeRepeaterConfiguration x => exact Mmdvm2020.TypeRepeaterConfiguration.toPy_noDict x

theorem Mmdvm2020.TypeRepeaterConfigurationOrClosing.toPy_noDict (x : Mmdvm2020.TypeRepeaterConfigurationOrClosing) : noDict x.toPy := by
  refine (noDict_object _ _).2 ?_
  refine (noDict_flatten_cons _ _).2 ⟨(noDict_attr _ _).2 (Mmdvm2020.TypeRepeaterConfigurationOrClosing.DataUnion.toPy_noDict x.data), ?_⟩
  simp [noDictInValues]

theorem Mmdvm2020.TypeRepeaterLoginResponse.toPy_noDict (x : Mmdvm2020.TypeRepeaterLoginResponse) : noDict x.toPy := by
  refine (noDict_object _ _).2 ?_
  refine (noDict_flatten_cons _ _).2 ⟨(noDict_attr _ _).2 (noDict_int _), ?_⟩
  refine (noDict_flatten_cons _ _).2 ⟨(noDict_attr _ _).2 (noDict_bytes _), ?_⟩
  simp [noDictInValues]

theorem Mmdvm2020.TypeRepeaterLoginRequest.toPy_noDict (x : Mmdvm2020.TypeRepeaterLoginRequest) : noDict x.toPy := by
  refine (noDict_object _ _).2 ?_
  refine (noDict_flatten_cons _ _).2 ⟨(noDict_attr _ _).2 (noDict_int _), ?_⟩
  simp [noDictInValues]

theorem Mmdvm2020.TypeMasterNotAccept.toPy_noDict (x : Mmdvm2020.TypeMasterNotAccept) : noDict x.toPy := by
  refine (noDict_object _ _).2 ?_
  refine (noDict_flatten_cons _ _).2 ⟨(noDict_attr _ _).2 (noDict_bytes _), ?_⟩
  refine (noDict_flatten_cons _ _).2 ⟨(noDict_attr _ _).2 (noDict_int _), ?_⟩
  simp [noDictInValues]

theorem Mmdvm2020.TypeUnknown.toPy_noDict (x : Mmdvm2020.TypeUnknown) : noDict x.toPy := by
  refine (noDict_object _ _).2 ?_
  refine (noDict_flatten_cons _ _).2 ⟨(noDict_attr _ _).2 (noDict_bytes _), ?_⟩
  simp [noDictInValues]

theorem Mmdvm2020.TypeMasterRepeaterAck.toPy_noDict (x : Mmdvm2020.TypeMasterRepeaterAck) : noDict x.toPy := by
  refine (noDict_object _ _).2 ?_
  refine (noDict_flatten_cons _ _).2 ⟨(noDict_attr _ _).2 (noDict_bytes _), ?_⟩
  refine (noDict_flatten_cons _ _).2 ⟨(noDict_attr _ _).2 (noDict_int _), ?_⟩
  simp [noDictInValues]

theorem Mmdvm2020.TypeMasterClosing.toPy_noDict (x : Mmdvm2020.TypeMasterClosing) : noDict x.toPy := by
  refine (noDict_object _ _).2 ?_
  refine (noDict_flatten_cons _ _).2 ⟨(noDict_attr _ _).2 (noDict_bytes _), ?_⟩
  refine (noDict_flatten_cons _ _).2 ⟨(noDict_attr _ _).2 (noDict_int _), ?_⟩
  simp [noDictInValues]

theorem Mmdvm2020.TypeDmrData.toPy_noDict (x : Mmdvm2020.TypeDmrData) : noDict x.toPy := by
  refine (noDict_object _ _).2 ?_
  refine (noDict_flatten_cons _ _).2 ⟨(noDict_attr _ _).2 (noDict_int _), ?_⟩
  refine (noDict_flatten_cons _ _).2 ⟨(noDict_attr _ _).2 (noDict_int _), ?_⟩
  refine (noDict_flatten_cons _ _).2 ⟨(noDict_attr _ _).2 (noDict_int _), ?_⟩
  refine (noDict_flatten_cons _ _).2 ⟨(noDict_attr _ _).2 (noDict_int _), ?_⟩
  refine (noDict_flatten_cons _ _).2 ⟨(noDict_attr _ _).2 (noDict_enum _ _), ?_⟩
  refine (noDict_flatten_cons _ _).2 ⟨(noDict_attr _ _).2 (noDict_enum _ _), ?_⟩
  refine (noDict_flatten_cons _ _).2 ⟨(noDict_attr _ _).2 (noDict_enum _ _), ?_⟩
  refine (noDict_flatten_cons _ _).2 ⟨(noDict_attr _ _).2 (noDict_int _), ?_⟩
  refine (noDict_flatten_cons _ _).2 ⟨(noDict_attr _ _).2 (noDict_int _), ?_⟩
  refine (noDict_flatten_cons _ _).2 ⟨(noDict_attr _ _).2 (noDict_bytes _), ?_⟩
  refine (noDict_flatten_cons _ _).2 ⟨noDict_optAttr _ _ _ fun y => noDict_int _, ?_⟩
  refine (noDict_flatten_cons _ _).2 ⟨noDict_optAttr _ _ _ fun y => noDict_int _, ?_⟩
  simp [noDictInValues]

theorem Mmdvm2020.TypeRepeaterBeacon.toPy_noDict (x : Mmdvm2020.TypeRepeaterBeacon) : noDict x.toPy := by
  refine (noDict_object _ _).2 ?_
  simp [noDictInValues]

theorem Mmdvm2020.TypeRepeaterOptions.toPy_noDict (x : Mmdvm2020.TypeRepeaterOptions) : noDict x.toPy := by
  refine (noDict_object _ _).2 ?_
  refine (noDict_flatten_cons _ _).2 ⟨(noDict_attr _ _).2 (noDict_int _), ?_⟩
  refine (noDict_flatten_cons _ _).2 ⟨(noDict_attr _ _).2 (noDict_str _), ?_⟩
  simp [noDictInValues]

theorem Mmdvm2020.TypeRepeaterPing.toPy_noDict (x : Mmdvm2020.TypeRepeaterPing) : noDict x.toPy := by
  refine (noDict_object _ _).2 ?_
  refine (noDict_flatten_cons _ _).2 ⟨(noDict_attr _ _).2 (noDict_bytes _), ?_⟩
  refine (noDict_flatten_cons _ _).2 ⟨(noDict_attr _ _).2 (noDict_int _), ?_⟩
  simp [noDictInValues]

theorem Mmdvm2020.CommandDataUnion.toPy_noDict (x : Mmdvm2020.CommandDataUnion) : noDict x.toPy := by
  cases x with
  | typeRepeaterLoginRequest x => exact Mmdvm2020.TypeRepeaterLoginRequest.toPy_noDict x
  | typeRadioPosition x => exact Mmdvm2020.TypeRadioPosition.toPy_noDict x
  | typeMasterRepeaterAck x => exact Mmdvm2020.TypeMasterRepeaterAck.toPy_noDict x
  | typeRepeaterLoginResponse x => exact Mmdvm2020.TypeRepeaterLoginResponse.toPy_noDict x
  | typeRepeaterConfigurationOrClosing x => exact Mmdvm2020.TypeRepeaterConfigurationOrClosing.toPy_noDict x
  | typeDmrData x => exact Mmdvm2020.TypeDmrData.toPy_noDict x
  | typeMasterClosing x => exact Mmdvm2020.TypeMasterClosing.toPy_noDict x
  | typeRepeaterPing x => exact Mmdvm2020.TypeRepeaterPing.toPy_noDict x
  | typeRepeaterOptions x => exact Mmdvm2020.TypeRepeaterOptions.toPy_noDict x
  | typeMasterPong x => exact Mmdvm2020.TypeMasterPong.toPy_noDict x
  | typeRepeaterBeacon x => exact Mmdvm2020.TypeRepeaterBeacon.toPy_noDict x
  | typeMasterNotAccept x => exact Mmdvm2020.TypeMasterNotAccept.toPy_noDict x
  | typeTalkerAlias x => exact Mmdvm2020.TypeTalkerAlias.toPy_noDict x

theorem Mmdvm2020.fifthLetter_noDict (o : Option Mmdvm2020.CommandDataUnion) (v : PyVal)
    (h : o.bind Mmdvm2020.CommandDataUnion.fifthLetter = some v) : noDict v := by
  cases o with
  | none => cases h
  | some u =>
    simp only [Option.bind_some] at h
    unfold Mmdvm2020.CommandDataUnion.fifthLetter at h
    split at h <;> first | (cases h; exact noDict_str _) | cases h

theorem Mmdvm2020.toPy_noDict (x : Mmdvm2020) : noDict x.toPy := by
  refine (noDict_object _ _).2 ?_
  refine (noDict_flatten_cons _ _).2 ⟨(noDict_attr _ _).2 (noDict_str _), ?_⟩
  refine (noDict_flatten_cons _ _).2 ⟨noDict_optAttr' _ _ fun v hv => Mmdvm2020.fifthLetter_noDict x.command_data v hv, ?_⟩
  refine (noDict_flatten_cons _ _).2 ⟨noDict_optAttr _ _ _ fun y => Mmdvm2020.CommandDataUnion.toPy_noDict y, ?_⟩
  simp [noDictInValues]

end Dmr.Homebrew

namespace Dmr.Motorola

theorem AutomaticRegistrationService.MessageHeaderBits.toPy_noDict (x : AutomaticRegistrationService.MessageHeaderBits) : noDict x.toPy := by
  refine (noDict_object _ _).2 ?_
  refine (noDict_flatten_cons _ _).2 ⟨(noDict_attr _ _).2 (noDict_bool _), ?_⟩
  refine (noDict_flatten_cons _ _).2 ⟨(noDict_attr _ _).2 (noDict_bool _), ?_⟩
  refine (noDict_flatten_cons _ _).2 ⟨(noDict_attr _ _).2 (noDict_bool _), ?_⟩
  refine (noDict_flatten_cons _ _).2 ⟨(noDict_attr _ _).2 (noDict_bool _), ?_⟩
  refine (noDict_flatten_cons _ _).2 ⟨(noDict_attr _ _).2 (noDict_int _), ?_⟩
  simp [noDictInValues]

theorem AutomaticRegistrationService.DeviceRegistrationAcknowledgementHeader.toPy_noDict (x : AutomaticRegistrationService.DeviceRegistrationAcknowledgementHeader) : noDict x.toPy := by
  refine (noDict_object _ _).2 ?_
  refine (noDict_flatten_cons _ _).2 ⟨(noDict_attr _ _).2 (noDict_bool _), ?_⟩
  refine (noDict_flatten_cons _ _).2 ⟨(noDict_attr _ _).2 (noDict_int _), ?_⟩
  simp [noDictInValues]

theorem AutomaticRegistrationService.DeviceRegistrationAcknowledgementFailureReason.toPy_noDict (x : AutomaticRegistrationService.DeviceRegistrationAcknowledgementFailureReason) : noDict x.toPy := by
  refine (noDict_object _ _).2 ?_
  refine (noDict_flatten_cons _ _).2 ⟨(noDict_attr _ _).2 (noDict_bool _), ?_⟩
  refine (noDict_flatten_cons _ _).2 ⟨(noDict_attr _ _).2 (noDict_enum _ _), ?_⟩
  simp [noDictInValues]

theorem AutomaticRegistrationService.AcknowledgementMessage.toPy_noDict (x : AutomaticRegistrationService.AcknowledgementMessage) : noDict x.toPy := by
  refine (noDict_object _ _).2 ?_
  refine (noDict_flatten_cons _ _).2 ⟨noDict_optAttr _ _ _ fun y => AutomaticRegistrationService.DeviceRegistrationAcknowledgementHeader.toPy_noDict y, ?_⟩
  refine (noDict_flatten_cons _ _).2 ⟨noDict_optAttr _ _ _ fun y => AutomaticRegistrationService.DeviceRegistrationAcknowledgementFailureReason.toPy_noDict y, ?_⟩
  simp [noDictInValues]

theorem AutomaticRegistrationService.DeviceRegistrationMessageHeader.toPy_noDict (x : AutomaticRegistrationService.DeviceRegistrationMessageHeader) : noDict x.toPy := by
  refine (noDict_object _ _).2 ?_
  refine (noDict_flatten_cons _ _).2 ⟨(noDict_attr _ _).2 (noDict_bool _), ?_⟩
  refine (noDict_flatten_cons _ _).2 ⟨(noDict_attr _ _).2 (noDict_enum _ _), ?_⟩
  refine (noDict_flatten_cons _ _).2 ⟨(noDict_attr _ _).2 (noDict_int _), ?_⟩
  simp [noDictInValues]

theorem AutomaticRegistrationService.DeviceDeregistrationMessage.toPy_noDict (x : AutomaticRegistrationService.DeviceDeregistrationMessage) : noDict x.toPy := by
  refine (noDict_object _ _).2 ?_
  simp [noDictInValues]

theorem AutomaticRegistrationService.DeviceRegistrationMessage.toPy_noDict (x : AutomaticRegistrationService.DeviceRegistrationMessage) : noDict x.toPy := by
  refine (noDict_object _ _).2 ?_
  refine (noDict_flatten_cons _ _).2 ⟨noDict_optAttr _ _ _ fun y => AutomaticRegistrationService.DeviceRegistrationMessageHeader.toPy_noDict y, ?_⟩
  refine (noDict_flatten_cons _ _).2 ⟨(noDict_attr _ _).2 (noDict_int _), ?_⟩
  refine (noDict_flatten_cons _ _).2 ⟨noDict_optAttr _ _ _ fun y => noDict_bytes _, ?_⟩
  refine (noDict_flatten_cons _ _).2 ⟨(noDict_attr _ _).2 (noDict_int _), ?_⟩
  refine (noDict_flatten_cons _ _).2 ⟨noDict_optAttr _ _ _ fun y => noDict_bytes _, ?_⟩
  refine (noDict_flatten_cons _ _).2 ⟨(noDict_attr _ _).2 (noDict_int _), ?_⟩
  refine (noDict_flatten_cons _ _).2 ⟨noDict_optAttr _ _ _ fun y => noDict_bytes _, ?_⟩
  simp [noDictInValues]

theorem AutomaticRegistrationService.ArsQueryMessage.toPy_noDict (x : AutomaticRegistrationService.ArsQueryMessage) : noDict x.toPy := by
  refine (noDict_object _ _).2 ?_
  simp [noDictInValues]

theorem AutomaticRegistrationService.PduContentUnion.toPy_noDict (x : AutomaticRegistrationService.PduContentUnion) : noDict x.toPy := by
  cases x with
  | deviceRegistrationMessage x => exact AutomaticRegistrationService.DeviceRegistrationMessage.toPy_noDict x
  | deviceDeregistrationMessage x => exact AutomaticRegistrationService.DeviceDeregistrationMessage.toPy_noDict x
  | arsQueryMessage x => exact AutomaticRegistrationService.ArsQueryMessage.toPy_noDict x
  | acknowledgementMessage x => exact AutomaticRegistrationService.AcknowledgementMessage.toPy_noDict x

theorem AutomaticRegistrationService.toPy_noDict (x : AutomaticRegistrationService) : noDict x.toPy := by
  refine (noDict_object _ _).2 ?_
  refine (noDict_flatten_cons _ _).2 ⟨(noDict_attr _ _).2 (noDict_int _), ?_⟩
  refine (noDict_flatten_cons _ _).2 ⟨(noDict_attr _ _).2 (AutomaticRegistrationService.MessageHeaderBits.toPy_noDict x.message_header), ?_⟩
  refine (noDict_flatten_cons _ _).2 ⟨noDict_optAttr _ _ _ fun y => AutomaticRegistrationService.PduContentUnion.toPy_noDict y, ?_⟩
  refine (noDict_flatten_cons _ _).2 ⟨(noDict_attr _ _).2 (noDict_bytes _), ?_⟩
  simp [noDictInValues]

theorem MotorolaBinaryXml.OpaqueElementValue.toPy_noDict (x : MotorolaBinaryXml.OpaqueElementValue) : noDict x.toPy := by
  refine (noDict_object _ _).2 ?_
  refine (noDict_flatten_cons _ _).2 ⟨(noDict_attr _ _).2 (noDict_int _), ?_⟩
  refine (noDict_flatten_cons _ _).2 ⟨(noDict_attr _ _).2 (noDict_bytes _), ?_⟩
  simp [noDictInValues]

theorem MotorolaBinaryXml.Opaque1byteValue.toPy_noDict (x : MotorolaBinaryXml.Opaque1byteValue) : noDict x.toPy := by
  refine (noDict_object _ _).2 ?_
  refine (noDict_flatten_cons _ _).2 ⟨(noDict_attr _ _).2 (noDict_bytes _), ?_⟩
  simp [noDictInValues]

theorem MotorolaBinaryXml.Uintvar.toPy_noDict (x : MotorolaBinaryXml.Uintvar) : noDict x.toPy := by
  refine (noDict_object _ _).2 ?_
  refine (noDict_flatten_cons _ _).2 ⟨(noDict_attr _ _).2 (noDict_list _ _ fun y => noDict_int _), ?_⟩
  simp [noDictInValues]

theorem MotorolaBinaryXml.ConstantDataTableReference.toPy_noDict (x : MotorolaBinaryXml.ConstantDataTableReference) : noDict x.toPy := by
  refine (noDict_object _ _).2 ?_
  refine (noDict_flatten_cons _ _).2 ⟨(noDict_attr _ _).2 (MotorolaBinaryXml.Uintvar.toPy_noDict x.byte_offset_from_cdt_start), ?_⟩
  simp [noDictInValues]

theorem MotorolaBinaryXml.LrrpElement.LrrpElementDataUnion.toPy_noDict (x : MotorolaBinaryXml.LrrpElement.LrrpElementDataUnion) : noDict x.toPy := by
  cases x with
  | opaqueElementValue x => exact MotorolaBinaryXml.OpaqueElementValue.toPy_noDict x
  | opaque1byteValue x => exact MotorolaBinaryXml.Opaque1byteValue.toPy_noDict x
  | constantDataTableReference x => exact MotorolaBinaryXml.ConstantDataTableReference.toPy_noDict x

theorem MotorolaBinaryXml.LrrpElement.toPy_noDict (x : MotorolaBinaryXml.LrrpElement) : noDict x.toPy := by
  refine (noDict_object _ _).2 ?_
  refine (noDict_flatten_cons _ _).2 ⟨(noDict_attr _ _).2 (noDict_enum _ _), ?_⟩
  refine (noDict_flatten_cons _ _).2 ⟨noDict_optAttr _ _ _ fun y => MotorolaBinaryXml.LrrpElement.LrrpElementDataUnion.toPy_noDict y, ?_⟩
  simp [noDictInValues]

theorem MotorolaBinaryXml.LrrpImmediateRequestNcdt.toPy_noDict (x : MotorolaBinaryXml.LrrpImmediateRequestNcdt) : noDict x.toPy := by
  refine (noDict_object _ _).2 ?_
  refine (noDict_flatten_cons _ _).2 ⟨(noDict_attr _ _).2 (MotorolaBinaryXml.LrrpElement.toPy_noDict x.elements), ?_⟩
  simp [noDictInValues]

theorem MotorolaBinaryXml.Opaque3byteValue.toPy_noDict (x : MotorolaBinaryXml.Opaque3byteValue) : noDict x.toPy := by
  refine (noDict_object _ _).2 ?_
  refine (noDict_flatten_cons _ _).2 ⟨(noDict_attr _ _).2 (noDict_bytes _), ?_⟩
  simp [noDictInValues]

theorem MotorolaBinaryXml.Sintvar.toPy_noDict (x : MotorolaBinaryXml.Sintvar) : noDict x.toPy := by
  refine (noDict_object _ _).2 ?_
  refine (noDict_flatten_cons _ _).2 ⟨(noDict_attr _ _).2 (noDict_list _ _ fun y => noDict_int _), ?_⟩
  simp [noDictInValues]

theorem MotorolaBinaryXml.Sfloatvar.toPy_noDict (x : MotorolaBinaryXml.Sfloatvar) : noDict x.toPy := by
  refine (noDict_object _ _).2 ?_
  refine (noDict_flatten_cons _ _).2 ⟨(noDict_attr _ _).2 (MotorolaBinaryXml.Sintvar.toPy_noDict x.sint_payload), ?_⟩
  refine (noDict_flatten_cons _ _).2 ⟨(noDict_attr _ _).2 (MotorolaBinaryXml.Uintvar.toPy_noDict x.fraction_payload), ?_⟩
  simp [noDictInValues]

theorem MotorolaBinaryXml.Opaque5byteValue.toPy_noDict (x : MotorolaBinaryXml.Opaque5byteValue) : noDict x.toPy := by
  refine (noDict_object _ _).2 ?_
  refine (noDict_flatten_cons _ _).2 ⟨(noDict_attr _ _).2 (noDict_bytes _), ?_⟩
  simp [noDictInValues]

theorem MotorolaBinaryXml.Ufloatvar.toPy_noDict (x : MotorolaBinaryXml.Ufloatvar) : noDict x.toPy := by
  refine (noDict_object _ _).2 ?_
  refine (noDict_flatten_cons _ _).2 ⟨(noDict_attr _ _).2 (MotorolaBinaryXml.Uintvar.toPy_noDict x.uint_payload), ?_⟩
  refine (noDict_flatten_cons _ _).2 ⟨(noDict_attr _ _).2 (MotorolaBinaryXml.Uintvar.toPy_noDict x.fraction_payload), ?_⟩
  simp [noDictInValues]

theorem MotorolaBinaryXml.MbxmlDocument.DocumentDataUnion.toPy_noDict (x : MotorolaBinaryXml.MbxmlDocument.DocumentDataUnion) : noDict x.toPy := by
  cases x with
  | lrrpImmediateRequestNcdt x => exact MotorolaBinaryXml.LrrpImmediateRequestNcdt.toPy_noDict x

theorem MotorolaBinaryXml.MbxmlDocument.toPy_noDict (x : MotorolaBinaryXml.MbxmlDocument) : noDict x.toPy := by
  refine (noDict_object _ _).2 ?_
  refine (noDict_flatten_cons _ _).2 ⟨(noDict_attr _ _).2 (noDict_enum _ _), ?_⟩
  refine (noDict_flatten_cons _ _).2 ⟨(noDict_attr _ _).2 (MotorolaBinaryXml.Uintvar.toPy_noDict x.num_document_bytes), ?_⟩
  refine (noDict_flatten_cons _ _).2 ⟨noDict_optAttr _ _ _ fun y => MotorolaBinaryXml.MbxmlDocument.DocumentDataUnion.toPy_noDict y, ?_⟩
  simp [noDictInValues]

theorem MotorolaBinaryXml.Opaque2byteValue.toPy_noDict (x : MotorolaBinaryXml.Opaque2byteValue) : noDict x.toPy := by
  refine (noDict_object _ _).2 ?_
  refine (noDict_flatten_cons _ _).2 ⟨(noDict_attr _ _).2 (noDict_bytes _), ?_⟩
  simp [noDictInValues]

theorem MotorolaBinaryXml.Opaque4byteValue.toPy_noDict (x : MotorolaBinaryXml.Opaque4byteValue) : noDict x.toPy := by
  refine (noDict_object _ _).2 ?_
  refine (noDict_flatten_cons _ _).2 ⟨(noDict_attr _ _).2 (noDict_bytes _), ?_⟩
  simp [noDictInValues]

theorem MotorolaBinaryXml.toPy_noDict (x : MotorolaBinaryXml) : noDict x.toPy := by
  refine (noDict_object _ _).2 ?_
  refine (noDict_flatten_cons _ _).2 ⟨(noDict_attr _ _).2 (noDict_list _ _ fun y => MotorolaBinaryXml.MbxmlDocument.toPy_noDict y), ?_⟩
  simp [noDictInValues]

theorem TextMessageProtocol.MessageHeaderBits.toPy_noDict (x : TextMessageProtocol.MessageHeaderBits) : noDict x.toPy := by
  refine (noDict_object _ _).2 ?_
  refine (noDict_flatten_cons _ _).2 ⟨(noDict_attr _ _).2 (noDict_bool _), ?_⟩
  refine (noDict_flatten_cons _ _).2 ⟨(noDict_attr _ _).2 (noDict_bool _), ?_⟩
  refine (noDict_flatten_cons _ _).2 ⟨(noDict_attr _ _).2 (noDict_bool _), ?_⟩
  refine (noDict_flatten_cons _ _).2 ⟨(noDict_attr _ _).2 (noDict_bool _), ?_⟩
  refine (noDict_flatten_cons _ _).2 ⟨(noDict_attr _ _).2 (noDict_int _), ?_⟩
  simp [noDictInValues]

theorem TextMessageProtocol.TextMessageHeaderSequenceAndEncoding.toPy_noDict (x : TextMessageProtocol.TextMessageHeaderSequenceAndEncoding) : noDict x.toPy := by
  refine (noDict_object _ _).2 ?_
  refine (noDict_flatten_cons _ _).2 ⟨(noDict_attr _ _).2 (noDict_bool _), ?_⟩
  refine (noDict_flatten_cons _ _).2 ⟨(noDict_attr _ _).2 (noDict_int _), ?_⟩
  refine (noDict_flatten_cons _ _).2 ⟨(noDict_attr _ _).2 (noDict_int _), ?_⟩
  refine (noDict_flatten_cons _ _).2 ⟨noDict_optAttr _ _ _ fun y => noDict_bool _, ?_⟩
  refine (noDict_flatten_cons _ _).2 ⟨noDict_optAttr _ _ _ fun y => noDict_int _, ?_⟩
  refine (noDict_flatten_cons _ _).2 ⟨(noDict_attr _ _).2 (noDict_int _), ?_⟩
  simp [noDictInValues]

theorem TextMessageProtocol.TextMessage.toPy_noDict (x : TextMessageProtocol.TextMessage) : noDict x.toPy := by
  refine (noDict_object _ _).2 ?_
  refine (noDict_flatten_cons _ _).2 ⟨noDict_optAttr _ _ _ fun y => TextMessageProtocol.TextMessageHeaderSequenceAndEncoding.toPy_noDict y, ?_⟩
  refine (noDict_flatten_cons _ _).2 ⟨(noDict_attr _ _).2 (noDict_str _), ?_⟩
  simp [noDictInValues]

theorem TextMessageProtocol.TmsServiceAvailabilityHeader.toPy_noDict (x : TextMessageProtocol.TmsServiceAvailabilityHeader) : noDict x.toPy := by
  refine (noDict_object _ _).2 ?_
  refine (noDict_flatten_cons _ _).2 ⟨(noDict_attr _ _).2 (noDict_bool _), ?_⟩
  refine (noDict_flatten_cons _ _).2 ⟨(noDict_attr _ _).2 (noDict_int _), ?_⟩
  refine (noDict_flatten_cons _ _).2 ⟨(noDict_attr _ _).2 (noDict_enum _ _), ?_⟩
  simp [noDictInValues]

theorem TextMessageProtocol.TmsServiceAvailability.toPy_noDict (x : TextMessageProtocol.TmsServiceAvailability) : noDict x.toPy := by
  refine (noDict_object _ _).2 ?_
  refine (noDict_flatten_cons _ _).2 ⟨noDict_optAttr _ _ _ fun y => TextMessageProtocol.TmsServiceAvailabilityHeader.toPy_noDict y, ?_⟩
  simp [noDictInValues]

theorem TextMessageProtocol.TmsAcknowledgementHeaderSequenceNumber.toPy_noDict (x : TextMessageProtocol.TmsAcknowledgementHeaderSequenceNumber) : noDict x.toPy := by
  refine (noDict_object _ _).2 ?_
  refine (noDict_flatten_cons _ _).2 ⟨(noDict_attr _ _).2 (noDict_bool _), ?_⟩
  refine (noDict_flatten_cons _ _).2 ⟨(noDict_attr _ _).2 (noDict_int _), ?_⟩
  refine (noDict_flatten_cons _ _).2 ⟨(noDict_attr _ _).2 (noDict_int _), ?_⟩
  refine (noDict_flatten_cons _ _).2 ⟨noDict_optAttr _ _ _ fun y => noDict_bool _, ?_⟩
  refine (noDict_flatten_cons _ _).2 ⟨noDict_optAttr _ _ _ fun y => noDict_int _, ?_⟩
  refine (noDict_flatten_cons _ _).2 ⟨noDict_optAttr _ _ _ fun y => noDict_int _, ?_⟩
  simp [noDictInValues]

theorem TextMessageProtocol.TmsAcknowledgement.toPy_noDict (x : TextMessageProtocol.TmsAcknowledgement) : noDict x.toPy := by
  refine (noDict_object _ _).2 ?_
  refine (noDict_flatten_cons _ _).2 ⟨noDict_optAttr _ _ _ fun y => TextMessageProtocol.TmsAcknowledgementHeaderSequenceNumber.toPy_noDict y, ?_⟩
  simp [noDictInValues]

theorem TextMessageProtocol.TmsServiceAvailabilityAcknowledgement.toPy_noDict (x : TextMessageProtocol.TmsServiceAvailabilityAcknowledgement) : noDict x.toPy := by
  refine (noDict_object _ _).2 ?_
  simp [noDictInValues]

theorem TextMessageProtocol.PduContentUnion.toPy_noDict (x : TextMessageProtocol.PduContentUnion) : noDict x.toPy := by
  cases x with
  | tmsServiceAvailability x => exact TextMessageProtocol.TmsServiceAvailability.toPy_noDict x
  | tmsAcknowledgement x => exact TextMessageProtocol.TmsAcknowledgement.toPy_noDict x
  | textMessage x => exact TextMessageProtocol.TextMessage.toPy_noDict x

theorem TextMessageProtocol.toPy_noDict (x : TextMessageProtocol) : noDict x.toPy := by
  refine (noDict_object _ _).2 ?_
  refine (noDict_flatten_cons _ _).2 ⟨(noDict_attr _ _).2 (noDict_int _), ?_⟩
  refine (noDict_flatten_cons _ _).2 ⟨(noDict_attr _ _).2 (TextMessageProtocol.MessageHeaderBits.toPy_noDict x.message_header), ?_⟩
  refine (noDict_flatten_cons _ _).2 ⟨(noDict_attr _ _).2 (noDict_int _), ?_⟩
  refine (noDict_flatten_cons _ _).2 ⟨noDict_optAttr _ _ _ fun y => noDict_bytes _, ?_⟩
  refine (noDict_flatten_cons _ _).2 ⟨(noDict_attr _ _).2 (noDict_int _), ?_⟩
  refine (noDict_flatten_cons _ _).2 ⟨noDict_optAttr _ _ _ fun y => TextMessageProtocol.PduContentUnion.toPy_noDict y, ?_⟩
  refine (noDict_flatten_cons _ _).2 ⟨(noDict_attr _ _).2 (noDict_bytes _), ?_⟩
  simp [noDictInValues]

end Dmr.Motorola

namespace Dmr.Tools

theorem ipsc_accesses_caches (ps : List Hytera.IpSiteConnectProtocol.Property) :
    ∀ (o : Hytera.IpSiteConnectProtocol.Obj), noDictInValues o.caches → noDictInValues (o.accesses ps).2.caches ∧
      (o.accesses ps).2.attrs = o.attrs := by
  induction ps with
  | nil => exact fun o h => ⟨h, rfl⟩
  | cons p ps ih =>
    intro o h
    have h1 : noDictInValues (o.access p).2.caches ∧ (o.access p).2.attrs = o.attrs := by
      unfold Hytera.IpSiteConnectProtocol.Obj.access
      split
      · exact ⟨h, rfl⟩
      · refine ⟨(noDictInValues_append _ _).2 ⟨h, ?_⟩, rfl⟩
        cases p <;> simp [Hytera.IpSiteConnectProtocol.compute, noDictInValues, noDict]
    have h2 := ih _ h1.1
    exact ⟨h2.1, h2.2.trans h1.2⟩

theorem ipsc_accesses_noDict (x : Hytera.IpSiteConnectProtocol) (ps : List Hytera.IpSiteConnectProtocol.Property) :
    noDict (Hytera.IpSiteConnectProtocol.Obj.accesses ⟨x, []⟩ ps).2.toPy := by
  obtain ⟨h1, h2⟩ := ipsc_accesses_caches ps ⟨x, []⟩ (by simp [noDictInValues])
  have h3 := x.toPy_noDict
  unfold Hytera.IpSiteConnectProtocol.Obj.toPy
  rw [h2]
  generalize x.toPy = v at h3
  cases v with
  | struct c a => simp only [noDict] at h3 ⊢; exact (noDictInValues_append _ _).2 ⟨h3, h1⟩
  | _ => exact h3

/-- The objects of the library: an instance of a class of the model, or an IPSC packet whose properties have been used. -/
inductive LibraryObject : PyVal → Prop where
  | Hytera_RadioIp (x : Dmr.Hytera.RadioIp) : LibraryObject x.toPy
  | Hytera_RadioId (x : Dmr.Hytera.RadioId) : LibraryObject x.toPy
  | Hytera_Gpsdata (x : Dmr.Hytera.Gpsdata) : LibraryObject x.toPy
  | Hytera_Datetimestring (x : Dmr.Hytera.Datetimestring) : LibraryObject x.toPy
  | Hytera_Intervalstring (x : Dmr.Hytera.Intervalstring) : LibraryObject x.toPy
  | Hytera_DataDeliveryStates (x : Dmr.Hytera.DataDeliveryStates) : LibraryObject x.toPy
  | Hytera_DataTransmitProtocol_LastDataSlice (x : Dmr.Hytera.DataTransmitProtocol.LastDataSlice) : LibraryObject x.toPy
  | Hytera_DataTransmitProtocol_DtpRequest (x : Dmr.Hytera.DataTransmitProtocol.DtpRequest) : LibraryObject x.toPy
  | Hytera_DataTransmitProtocol_DataSliceAnswer (x : Dmr.Hytera.DataTransmitProtocol.DataSliceAnswer) : LibraryObject x.toPy
  | Hytera_DataTransmitProtocol_DataSliceTransmit (x : Dmr.Hytera.DataTransmitProtocol.DataSliceTransmit) : LibraryObject x.toPy
  | Hytera_DataTransmitProtocol_LastDataSliceAnswer (x : Dmr.Hytera.DataTransmitProtocol.LastDataSliceAnswer) : LibraryObject x.toPy
  | Hytera_DataTransmitProtocol_DtpAnswer (x : Dmr.Hytera.DataTransmitProtocol.DtpAnswer) : LibraryObject x.toPy
  | Hytera_DataTransmitProtocol (x : Dmr.Hytera.DataTransmitProtocol) : LibraryObject x.toPy
  | Hytera_LocationProtocol_TriggeredReportStopAnswer (x : Dmr.Hytera.LocationProtocol.TriggeredReportStopAnswer) : LibraryObject x.toPy
  | Hytera_LocationProtocol_ConditionReportRequest (x : Dmr.Hytera.LocationProtocol.ConditionReportRequest) : LibraryObject x.toPy
  | Hytera_LocationProtocol_QuickGpsPayload (x : Dmr.Hytera.LocationProtocol.QuickGpsPayload) : LibraryObject x.toPy
  | Hytera_LocationProtocol_ConditionQuickGpsRequest (x : Dmr.Hytera.LocationProtocol.ConditionQuickGpsRequest) : LibraryObject x.toPy
  | Hytera_LocationProtocol_ConditionReport (x : Dmr.Hytera.LocationProtocol.ConditionReport) : LibraryObject x.toPy
  | Hytera_LocationProtocol_EmergencyReport (x : Dmr.Hytera.LocationProtocol.EmergencyReport) : LibraryObject x.toPy
  | Hytera_LocationProtocol_TriggeredReportAnswer (x : Dmr.Hytera.LocationProtocol.TriggeredReportAnswer) : LibraryObject x.toPy
  | Hytera_LocationProtocol_StandardAnswerWithRssi (x : Dmr.Hytera.LocationProtocol.StandardAnswerWithRssi) : LibraryObject x.toPy
  | Hytera_LocationProtocol_StandardRequest (x : Dmr.Hytera.LocationProtocol.StandardRequest) : LibraryObject x.toPy
  | Hytera_LocationProtocol_TriggeredReportRequest (x : Dmr.Hytera.LocationProtocol.TriggeredReportRequest) : LibraryObject x.toPy
  | Hytera_LocationProtocol_StandardAnswer (x : Dmr.Hytera.LocationProtocol.StandardAnswer) : LibraryObject x.toPy
  | Hytera_LocationProtocol_ConditionReportAnswer (x : Dmr.Hytera.LocationProtocol.ConditionReportAnswer) : LibraryObject x.toPy
  | Hytera_LocationProtocol_EmergencyReportStopRequest (x : Dmr.Hytera.LocationProtocol.EmergencyReportStopRequest) : LibraryObject x.toPy
  | Hytera_LocationProtocol_ConditionQuickGpsAnswer (x : Dmr.Hytera.LocationProtocol.ConditionQuickGpsAnswer) : LibraryObject x.toPy
  | Hytera_LocationProtocol_TriggeredReport (x : Dmr.Hytera.LocationProtocol.TriggeredReport) : LibraryObject x.toPy
  | Hytera_LocationProtocol_ConditionReportWithRssi (x : Dmr.Hytera.LocationProtocol.ConditionReportWithRssi) : LibraryObject x.toPy
  | Hytera_LocationProtocol_EmergencyReportStopAnswer (x : Dmr.Hytera.LocationProtocol.EmergencyReportStopAnswer) : LibraryObject x.toPy
  | Hytera_LocationProtocol_TriggeredReportStopRequest (x : Dmr.Hytera.LocationProtocol.TriggeredReportStopRequest) : LibraryObject x.toPy
  | Hytera_LocationProtocol (x : Dmr.Hytera.LocationProtocol) : LibraryObject x.toPy
  | Hytera_RadioControlProtocol_BroadcastStatusConfigurationReply (x : Dmr.Hytera.RadioControlProtocol.BroadcastStatusConfigurationReply) : LibraryObject x.toPy
  | Hytera_RadioControlProtocol_BroadcastConfiguration (x : Dmr.Hytera.RadioControlProtocol.BroadcastConfiguration) : LibraryObject x.toPy
  | Hytera_RadioControlProtocol_BroadcastStatusConfigurationRequest (x : Dmr.Hytera.RadioControlProtocol.BroadcastStatusConfigurationRequest) : LibraryObject x.toPy
  | Hytera_RadioControlProtocol_RadioIdentificationReply (x : Dmr.Hytera.RadioControlProtocol.RadioIdentificationReply) : LibraryObject x.toPy
  | Hytera_RadioControlProtocol_GenericData (x : Dmr.Hytera.RadioControlProtocol.GenericData) : LibraryObject x.toPy
  | Hytera_RadioControlProtocol_CallRequest (x : Dmr.Hytera.RadioControlProtocol.CallRequest) : LibraryObject x.toPy
  | Hytera_RadioControlProtocol_RemoveRadioReply (x : Dmr.Hytera.RadioControlProtocol.RemoveRadioReply) : LibraryObject x.toPy
  | Hytera_RadioControlProtocol_RemoveRadioRequest (x : Dmr.Hytera.RadioControlProtocol.RemoveRadioRequest) : LibraryObject x.toPy
  | Hytera_RadioControlProtocol_CallReply (x : Dmr.Hytera.RadioControlProtocol.CallReply) : LibraryObject x.toPy
  | Hytera_RadioControlProtocol (x : Dmr.Hytera.RadioControlProtocol) : LibraryObject x.toPy
  | Hytera_RadioRegistrationService (x : Dmr.Hytera.RadioRegistrationService) : LibraryObject x.toPy
  | Hytera_TelemetryProtocol_StandardStatusReport (x : Dmr.Hytera.TelemetryProtocol.StandardStatusReport) : LibraryObject x.toPy
  | Hytera_TelemetryProtocol_VioExtendedStatus (x : Dmr.Hytera.TelemetryProtocol.VioExtendedStatus) : LibraryObject x.toPy
  | Hytera_TelemetryProtocol_RemoteControlAnswer (x : Dmr.Hytera.TelemetryProtocol.RemoteControlAnswer) : LibraryObject x.toPy
  | Hytera_TelemetryProtocol_RemoteControlRequest (x : Dmr.Hytera.TelemetryProtocol.RemoteControlRequest) : LibraryObject x.toPy
  | Hytera_TelemetryProtocol_ExtendedStatusReport (x : Dmr.Hytera.TelemetryProtocol.ExtendedStatusReport) : LibraryObject x.toPy
  | Hytera_TelemetryProtocol_StandardStatusRequest (x : Dmr.Hytera.TelemetryProtocol.StandardStatusRequest) : LibraryObject x.toPy
  | Hytera_TelemetryProtocol (x : Dmr.Hytera.TelemetryProtocol) : LibraryObject x.toPy
  | Hytera_TextMessageProtocol (x : Dmr.Hytera.TextMessageProtocol) : LibraryObject x.toPy
  | Hytera_HyteraDmrApplicationProtocol_UndefinedProtocol (x : Dmr.Hytera.HyteraDmrApplicationProtocol.UndefinedProtocol) : LibraryObject x.toPy
  | Hytera_HyteraDmrApplicationProtocol (x : Dmr.Hytera.HyteraDmrApplicationProtocol) : LibraryObject x.toPy
  | Hytera_HyteraRadioNetworkProtocol (x : Dmr.Hytera.HyteraRadioNetworkProtocol) : LibraryObject x.toPy
  | Hytera_HyteraSimpleTransportReliabilityProtocol_Option (x : Dmr.Hytera.HyteraSimpleTransportReliabilityProtocol.Option) : LibraryObject x.toPy
  | Hytera_HyteraSimpleTransportReliabilityProtocol (x : Dmr.Hytera.HyteraSimpleTransportReliabilityProtocol) : LibraryObject x.toPy
  | Hytera_IpSiteConnectHeartbeat_Keepalive (x : Dmr.Hytera.IpSiteConnectHeartbeat.Keepalive) : LibraryObject x.toPy
  | Hytera_IpSiteConnectHeartbeat_PingPong (x : Dmr.Hytera.IpSiteConnectHeartbeat.PingPong) : LibraryObject x.toPy
  | Hytera_IpSiteConnectHeartbeat_Unknown (x : Dmr.Hytera.IpSiteConnectHeartbeat.Unknown) : LibraryObject x.toPy
  | Hytera_IpSiteConnectHeartbeat (x : Dmr.Hytera.IpSiteConnectHeartbeat) : LibraryObject x.toPy
  | Hytera_IpSiteConnectProtocol (x : Dmr.Hytera.IpSiteConnectProtocol) : LibraryObject x.toPy
  | Hytera_RealTimeTransportProtocol_FixedHeader (x : Dmr.Hytera.RealTimeTransportProtocol.FixedHeader) : LibraryObject x.toPy
  | Hytera_RealTimeTransportProtocol_HeaderExtension (x : Dmr.Hytera.RealTimeTransportProtocol.HeaderExtension) : LibraryObject x.toPy
  | Hytera_RealTimeTransportProtocol (x : Dmr.Hytera.RealTimeTransportProtocol) : LibraryObject x.toPy
  | Etsi_DmrCsbk_NegativeAckResponseData (x : Dmr.Etsi.DmrCsbk.NegativeAckResponseData) : LibraryObject x.toPy
  | Etsi_DmrCsbk_ServiceOptions (x : Dmr.Etsi.DmrCsbk.ServiceOptions) : LibraryObject x.toPy
  | Etsi_DmrCsbk_UnitToUnitVoiceRequestData (x : Dmr.Etsi.DmrCsbk.UnitToUnitVoiceRequestData) : LibraryObject x.toPy
  | Etsi_DmrCsbk_PreambleData (x : Dmr.Etsi.DmrCsbk.PreambleData) : LibraryObject x.toPy
  | Etsi_DmrCsbk_ChannelTimingData (x : Dmr.Etsi.DmrCsbk.ChannelTimingData) : LibraryObject x.toPy
  | Etsi_DmrCsbk_BsOutboundActivationData (x : Dmr.Etsi.DmrCsbk.BsOutboundActivationData) : LibraryObject x.toPy
  | Etsi_DmrCsbk_UnitToUnitVoiceAnswerData (x : Dmr.Etsi.DmrCsbk.UnitToUnitVoiceAnswerData) : LibraryObject x.toPy
  | Etsi_DmrCsbk (x : Dmr.Etsi.DmrCsbk) : LibraryObject x.toPy
  | Etsi_DmrData_Rate1LastBlockUnconfirmed (x : Dmr.Etsi.DmrData.Rate1LastBlockUnconfirmed) : LibraryObject x.toPy
  | Etsi_DmrData_Rate12LastBlockConfirmed (x : Dmr.Etsi.DmrData.Rate12LastBlockConfirmed) : LibraryObject x.toPy
  | Etsi_DmrData_Rate12Confirmed (x : Dmr.Etsi.DmrData.Rate12Confirmed) : LibraryObject x.toPy
  | Etsi_DmrData_Rate34LastBlockUnconfirmed (x : Dmr.Etsi.DmrData.Rate34LastBlockUnconfirmed) : LibraryObject x.toPy
  | Etsi_DmrData_Rate1LastBlockConfirmed (x : Dmr.Etsi.DmrData.Rate1LastBlockConfirmed) : LibraryObject x.toPy
  | Etsi_DmrData_Rate1Unconfirmed (x : Dmr.Etsi.DmrData.Rate1Unconfirmed) : LibraryObject x.toPy
  | Etsi_DmrData_UdtLastBlock (x : Dmr.Etsi.DmrData.UdtLastBlock) : LibraryObject x.toPy
  | Etsi_DmrData_Rate34Confirmed (x : Dmr.Etsi.DmrData.Rate34Confirmed) : LibraryObject x.toPy
  | Etsi_DmrData_Rate34LastBlockConfirmed (x : Dmr.Etsi.DmrData.Rate34LastBlockConfirmed) : LibraryObject x.toPy
  | Etsi_DmrData_Rate34Unconfirmed (x : Dmr.Etsi.DmrData.Rate34Unconfirmed) : LibraryObject x.toPy
  | Etsi_DmrData_Rate12LastBlockUnconfirmed (x : Dmr.Etsi.DmrData.Rate12LastBlockUnconfirmed) : LibraryObject x.toPy
  | Etsi_DmrData_Rate1Confirmed (x : Dmr.Etsi.DmrData.Rate1Confirmed) : LibraryObject x.toPy
  | Etsi_DmrData_Rate12Unconfirmed (x : Dmr.Etsi.DmrData.Rate12Unconfirmed) : LibraryObject x.toPy
  | Etsi_DmrData (x : Dmr.Etsi.DmrData) : LibraryObject x.toPy
  | Etsi_DmrDataHeader_DataHeaderShortRaw (x : Dmr.Etsi.DmrDataHeader.DataHeaderShortRaw) : LibraryObject x.toPy
  | Etsi_DmrDataHeader_DataHeaderProprietary (x : Dmr.Etsi.DmrDataHeader.DataHeaderProprietary) : LibraryObject x.toPy
  | Etsi_DmrDataHeader_DataHeaderUndefined (x : Dmr.Etsi.DmrDataHeader.DataHeaderUndefined) : LibraryObject x.toPy
  | Etsi_DmrDataHeader_DataHeaderShortStatusPrecoded (x : Dmr.Etsi.DmrDataHeader.DataHeaderShortStatusPrecoded) : LibraryObject x.toPy
  | Etsi_DmrDataHeader_DataHeaderResponse (x : Dmr.Etsi.DmrDataHeader.DataHeaderResponse) : LibraryObject x.toPy
  | Etsi_DmrDataHeader_DataHeaderConfirmed (x : Dmr.Etsi.DmrDataHeader.DataHeaderConfirmed) : LibraryObject x.toPy
  | Etsi_DmrDataHeader_DataHeaderUnconfirmed (x : Dmr.Etsi.DmrDataHeader.DataHeaderUnconfirmed) : LibraryObject x.toPy
  | Etsi_DmrDataHeader_DataHeaderShortDefined (x : Dmr.Etsi.DmrDataHeader.DataHeaderShortDefined) : LibraryObject x.toPy
  | Etsi_DmrDataHeader_DataHeaderUdt (x : Dmr.Etsi.DmrDataHeader.DataHeaderUdt) : LibraryObject x.toPy
  | Etsi_DmrDataHeader (x : Dmr.Etsi.DmrDataHeader) : LibraryObject x.toPy
  | Etsi_DmrIpUdp_UdpIpv4CompressedHeader (x : Dmr.Etsi.DmrIpUdp.UdpIpv4CompressedHeader) : LibraryObject x.toPy
  | Etsi_DmrIpUdp (x : Dmr.Etsi.DmrIpUdp) : LibraryObject x.toPy
  | Etsi_FullLinkControl_GpsInfoLcPdu (x : Dmr.Etsi.FullLinkControl.GpsInfoLcPdu) : LibraryObject x.toPy
  | Etsi_FullLinkControl_GroupVoiceChannelUser (x : Dmr.Etsi.FullLinkControl.GroupVoiceChannelUser) : LibraryObject x.toPy
  | Etsi_FullLinkControl_UnitToUnitVoiceChannelUser (x : Dmr.Etsi.FullLinkControl.UnitToUnitVoiceChannelUser) : LibraryObject x.toPy
  | Etsi_FullLinkControl_TalkerAliasHeader (x : Dmr.Etsi.FullLinkControl.TalkerAliasHeader) : LibraryObject x.toPy
  | Etsi_FullLinkControl_TalkerAliasContinuation (x : Dmr.Etsi.FullLinkControl.TalkerAliasContinuation) : LibraryObject x.toPy
  | Etsi_FullLinkControl (x : Dmr.Etsi.FullLinkControl) : LibraryObject x.toPy
  | Homebrew_Homebrew2015_TypeMasterPing (x : Dmr.Homebrew.Homebrew2015.TypeMasterPing) : LibraryObject x.toPy
  | Homebrew_Homebrew2015_TypeRepeaterPong (x : Dmr.Homebrew.Homebrew2015.TypeRepeaterPong) : LibraryObject x.toPy
  | Homebrew_Homebrew2015_TypeRepeaterClosing (x : Dmr.Homebrew.Homebrew2015.TypeRepeaterClosing) : LibraryObject x.toPy
  | Homebrew_Homebrew2015_TypeRepeaterConfiguration (x : Dmr.Homebrew.Homebrew2015.TypeRepeaterConfiguration) : LibraryObject x.toPy
  | Homebrew_Homebrew2015_TypeRepeaterConfigurationOrClosing (x : Dmr.Homebrew.Homebrew2015.TypeRepeaterConfigurationOrClosing) : LibraryObject x.toPy
  | Homebrew_Homebrew2015_TypeRepeaterLoginResponse (x : Dmr.Homebrew.Homebrew2015.TypeRepeaterLoginResponse) : LibraryObject x.toPy
  | Homebrew_Homebrew2015_TypeRepeaterLoginRequest (x : Dmr.Homebrew.Homebrew2015.TypeRepeaterLoginRequest) : LibraryObject x.toPy
  | Homebrew_Homebrew2015_TypeMasterNotAccept (x : Dmr.Homebrew.Homebrew2015.TypeMasterNotAccept) : LibraryObject x.toPy
  | Homebrew_Homebrew2015_TypeMasterRepeaterAck (x : Dmr.Homebrew.Homebrew2015.TypeMasterRepeaterAck) : LibraryObject x.toPy
  | Homebrew_Homebrew2015_TypeMasterClosing (x : Dmr.Homebrew.Homebrew2015.TypeMasterClosing) : LibraryObject x.toPy
  | Homebrew_Homebrew2015_TypeDmrData (x : Dmr.Homebrew.Homebrew2015.TypeDmrData) : LibraryObject x.toPy
  | Homebrew_Homebrew2015_TypeRepeaterOptions (x : Dmr.Homebrew.Homebrew2015.TypeRepeaterOptions) : LibraryObject x.toPy
  | Homebrew_Homebrew2015 (x : Dmr.Homebrew.Homebrew2015) : LibraryObject x.toPy
  | Homebrew_Mmdvm2020_TypeMasterPong (x : Dmr.Homebrew.Mmdvm2020.TypeMasterPong) : LibraryObject x.toPy
  | Homebrew_Mmdvm2020_TypeRadioPosition (x : Dmr.Homebrew.Mmdvm2020.TypeRadioPosition) : LibraryObject x.toPy
  | Homebrew_Mmdvm2020_TypeTalkerAlias (x : Dmr.Homebrew.Mmdvm2020.TypeTalkerAlias) : LibraryObject x.toPy
  | Homebrew_Mmdvm2020_TypeRepeaterClosing (x : Dmr.Homebrew.Mmdvm2020.TypeRepeaterClosing) : LibraryObject x.toPy
  | Homebrew_Mmdvm2020_TypeRepeaterConfiguration (x : Dmr.Homebrew.Mmdvm2020.TypeRepeaterConfiguration) : LibraryObject x.toPy
  | Homebrew_Mmdvm2020_TypeRepeaterConfigurationOrClosing (x : Dmr.Homebrew.Mmdvm2020.TypeRepeaterConfigurationOrClosing) : LibraryObject x.toPy
  | Homebrew_Mmdvm2020_TypeRepeaterLoginResponse (x : Dmr.Homebrew.Mmdvm2020.TypeRepeaterLoginResponse) : LibraryObject x.toPy
  | Homebrew_Mmdvm2020_TypeRepeaterLoginRequest (x : Dmr.Homebrew.Mmdvm2020.TypeRepeaterLoginRequest) : LibraryObject x.toPy
  | Homebrew_Mmdvm2020_TypeMasterNotAccept (x : Dmr.Homebrew.Mmdvm2020.TypeMasterNotAccept) : LibraryObject x.toPy
  | Homebrew_Mmdvm2020_TypeUnknown (x : Dmr.Homebrew.Mmdvm2020.TypeUnknown) : LibraryObject x.toPy
  | Homebrew_Mmdvm2020_TypeMasterRepeaterAck (x : Dmr.Homebrew.Mmdvm2020.TypeMasterRepeaterAck) : LibraryObject x.toPy
  | Homebrew_Mmdvm2020_TypeMasterClosing (x : Dmr.Homebrew.Mmdvm2020.TypeMasterClosing) : LibraryObject x.toPy
  | Homebrew_Mmdvm2020_TypeDmrData (x : Dmr.Homebrew.Mmdvm2020.TypeDmrData) : LibraryObject x.toPy
  | Homebrew_Mmdvm2020_TypeRepeaterBeacon (x : Dmr.Homebrew.Mmdvm2020.TypeRepeaterBeacon) : LibraryObject x.toPy
  | Homebrew_Mmdvm2020_TypeRepeaterOptions (x : Dmr.Homebrew.Mmdvm2020.TypeRepeaterOptions) : LibraryObject x.toPy
  | Homebrew_Mmdvm2020_TypeRepeaterPing (x : Dmr.Homebrew.Mmdvm2020.TypeRepeaterPing) : LibraryObject x.toPy
  | Homebrew_Mmdvm2020 (x : Dmr.Homebrew.Mmdvm2020) : LibraryObject x.toPy
  | Motorola_AutomaticRegistrationService_MessageHeaderBits (x : Dmr.Motorola.AutomaticRegistrationService.MessageHeaderBits) : LibraryObject x.toPy
  | Motorola_AutomaticRegistrationService_DeviceRegistrationAcknowledgementHeader (x : Dmr.Motorola.AutomaticRegistrationService.DeviceRegistrationAcknowledgementHeader) : LibraryObject x.toPy
  | Motorola_AutomaticRegistrationService_DeviceRegistrationAcknowledgementFailureReason (x : Dmr.Motorola.AutomaticRegistrationService.DeviceRegistrationAcknowledgementFailureReason) : LibraryObject x.toPy
  | Motorola_AutomaticRegistrationService_AcknowledgementMessage (x : Dmr.Motorola.AutomaticRegistrationService.AcknowledgementMessage) : LibraryObject x.toPy
  | Motorola_AutomaticRegistrationService_DeviceRegistrationMessageHeader (x : Dmr.Motorola.AutomaticRegistrationService.DeviceRegistrationMessageHeader) : LibraryObject x.toPy
  | Motorola_AutomaticRegistrationService_DeviceDeregistrationMessage (x : Dmr.Motorola.AutomaticRegistrationService.DeviceDeregistrationMessage) : LibraryObject x.toPy
  | Motorola_AutomaticRegistrationService_DeviceRegistrationMessage (x : Dmr.Motorola.AutomaticRegistrationService.DeviceRegistrationMessage) : LibraryObject x.toPy
  | Motorola_AutomaticRegistrationService_ArsQueryMessage (x : Dmr.Motorola.AutomaticRegistrationService.ArsQueryMessage) : LibraryObject x.toPy
  | Motorola_AutomaticRegistrationService (x : Dmr.Motorola.AutomaticRegistrationService) : LibraryObject x.toPy
  | Motorola_MotorolaBinaryXml_OpaqueElementValue (x : Dmr.Motorola.MotorolaBinaryXml.OpaqueElementValue) : LibraryObject x.toPy
  | Motorola_MotorolaBinaryXml_Opaque1byteValue (x : Dmr.Motorola.MotorolaBinaryXml.Opaque1byteValue) : LibraryObject x.toPy
  | Motorola_MotorolaBinaryXml_Uintvar (x : Dmr.Motorola.MotorolaBinaryXml.Uintvar) : LibraryObject x.toPy
  | Motorola_MotorolaBinaryXml_ConstantDataTableReference (x : Dmr.Motorola.MotorolaBinaryXml.ConstantDataTableReference) : LibraryObject x.toPy
  | Motorola_MotorolaBinaryXml_LrrpElement (x : Dmr.Motorola.MotorolaBinaryXml.LrrpElement) : LibraryObject x.toPy
  | Motorola_MotorolaBinaryXml_LrrpImmediateRequestNcdt (x : Dmr.Motorola.MotorolaBinaryXml.LrrpImmediateRequestNcdt) : LibraryObject x.toPy
  | Motorola_MotorolaBinaryXml_Opaque3byteValue (x : Dmr.Motorola.MotorolaBinaryXml.Opaque3byteValue) : LibraryObject x.toPy
  | Motorola_MotorolaBinaryXml_Sintvar (x : Dmr.Motorola.MotorolaBinaryXml.Sintvar) : LibraryObject x.toPy
  | Motorola_MotorolaBinaryXml_Sfloatvar (x : Dmr.Motorola.MotorolaBinaryXml.Sfloatvar) : LibraryObject x.toPy
  | Motorola_MotorolaBinaryXml_Opaque5byteValue (x : Dmr.Motorola.MotorolaBinaryXml.Opaque5byteValue) : LibraryObject x.toPy
  | Motorola_MotorolaBinaryXml_Ufloatvar (x : Dmr.Motorola.MotorolaBinaryXml.Ufloatvar) : LibraryObject x.toPy
  | Motorola_MotorolaBinaryXml_MbxmlDocument (x : Dmr.Motorola.MotorolaBinaryXml.MbxmlDocument) : LibraryObject x.toPy
  | Motorola_MotorolaBinaryXml_Opaque2byteValue (x : Dmr.Motorola.MotorolaBinaryXml.Opaque2byteValue) : LibraryObject x.toPy
  | Motorola_MotorolaBinaryXml_Opaque4byteValue (x : Dmr.Motorola.MotorolaBinaryXml.Opaque4byteValue) : LibraryObject x.toPy
  | Motorola_MotorolaBinaryXml (x : Dmr.Motorola.MotorolaBinaryXml) : LibraryObject x.toPy
  | Motorola_TextMessageProtocol_MessageHeaderBits (x : Dmr.Motorola.TextMessageProtocol.MessageHeaderBits) : LibraryObject x.toPy
  | Motorola_TextMessageProtocol_TextMessageHeaderSequenceAndEncoding (x : Dmr.Motorola.TextMessageProtocol.TextMessageHeaderSequenceAndEncoding) : LibraryObject x.toPy
  | Motorola_TextMessageProtocol_TextMessage (x : Dmr.Motorola.TextMessageProtocol.TextMessage) : LibraryObject x.toPy
  | Motorola_TextMessageProtocol_TmsServiceAvailabilityHeader (x : Dmr.Motorola.TextMessageProtocol.TmsServiceAvailabilityHeader) : LibraryObject x.toPy
  | Motorola_TextMessageProtocol_TmsServiceAvailability (x : Dmr.Motorola.TextMessageProtocol.TmsServiceAvailability) : LibraryObject x.toPy
  | Motorola_TextMessageProtocol_TmsAcknowledgementHeaderSequenceNumber (x : Dmr.Motorola.TextMessageProtocol.TmsAcknowledgementHeaderSequenceNumber) : LibraryObject x.toPy
  | Motorola_TextMessageProtocol_TmsAcknowledgement (x : Dmr.Motorola.TextMessageProtocol.TmsAcknowledgement) : LibraryObject x.toPy
  | Motorola_TextMessageProtocol_TmsServiceAvailabilityAcknowledgement (x : Dmr.Motorola.TextMessageProtocol.TmsServiceAvailabilityAcknowledgement) : LibraryObject x.toPy
  | Motorola_TextMessageProtocol (x : Dmr.Motorola.TextMessageProtocol) : LibraryObject x.toPy
  | used_IpSiteConnectProtocol (x : Dmr.Hytera.IpSiteConnectProtocol) (ps : List Dmr.Hytera.IpSiteConnectProtocol.Property) :
      LibraryObject (Dmr.Hytera.IpSiteConnectProtocol.Obj.accesses ⟨x, []⟩ ps).2.toPy

theorem LibraryObject.noDict {v : PyVal} (h : LibraryObject v) : noDict v := by
  cases h with
  | Hytera_RadioIp x => exact x.toPy_noDict
  | Hytera_RadioId x => exact x.toPy_noDict
  | Hytera_Gpsdata x => exact x.toPy_noDict
  | Hytera_Datetimestring x => exact x.toPy_noDict
  | Hytera_Intervalstring x => exact x.toPy_noDict
  | Hytera_DataDeliveryStates x => exact x.toPy_noDict
  | Hytera_DataTransmitProtocol_LastDataSlice x => exact x.toPy_noDict
  | Hytera_DataTransmitProtocol_DtpRequest x => exact x.toPy_noDict
  | Hytera_DataTransmitProtocol_DataSliceAnswer x => exact x.toPy_noDict
  | Hytera_DataTransmitProtocol_DataSliceTransmit x => exact x.toPy_noDict
  | Hytera_DataTransmitProtocol_LastDataSliceAnswer x => exact x.toPy_noDict
  | Hytera_DataTransmitProtocol_DtpAnswer x => exact x.toPy_noDict
  | Hytera_DataTransmitProtocol x => exact x.toPy_noDict
  | Hytera_LocationProtocol_TriggeredReportStopAnswer x => exact x.toPy_noDict
  | Hytera_LocationProtocol_ConditionReportRequest x => exact x.toPy_noDict
  | Hytera_LocationProtocol_QuickGpsPayload x => exact x.toPy_noDict
  | Hytera_LocationProtocol_ConditionQuickGpsRequest x => exact x.toPy_noDict
  | Hytera_LocationProtocol_ConditionReport x => exact x.toPy_noDict
  | Hytera_LocationProtocol_EmergencyReport x => exact x.toPy_noDict
  | Hytera_LocationProtocol_TriggeredReportAnswer x => exact x.toPy_noDict
  | Hytera_LocationProtocol_StandardAnswerWithRssi x => exact x.toPy_noDict
  | Hytera_LocationProtocol_StandardRequest x => exact x.toPy_noDict
  | Hytera_LocationProtocol_TriggeredReportRequest x => exact x.toPy_noDict
  | Hytera_LocationProtocol_StandardAnswer x => exact x.toPy_noDict
  | Hytera_LocationProtocol_ConditionReportAnswer x => exact x.toPy_noDict
  | Hytera_LocationProtocol_EmergencyReportStopRequest x => exact x.toPy_noDict
  | Hytera_LocationProtocol_ConditionQuickGpsAnswer x => exact x.toPy_noDict
  | Hytera_LocationProtocol_TriggeredReport x => exact x.toPy_noDict
  | Hytera_LocationProtocol_ConditionReportWithRssi x => exact x.toPy_noDict
  | Hytera_LocationProtocol_EmergencyReportStopAnswer x => exact x.toPy_noDict
  | Hytera_LocationProtocol_TriggeredReportStopRequest x => exact x.toPy_noDict
  | Hytera_LocationProtocol x => exact x.toPy_noDict
  | Hytera_RadioControlProtocol_BroadcastStatusConfigurationReply x => exact x.toPy_noDict
  | Hytera_RadioControlProtocol_BroadcastConfiguration x => exact x.toPy_noDict
  | Hytera_RadioControlProtocol_BroadcastStatusConfigurationRequest x => exact x.toPy_noDict
  | Hytera_RadioControlProtocol_RadioIdentificationReply x => exact x.toPy_noDict
  | Hytera_RadioControlProtocol_GenericData x => exact x.toPy_noDict
  | Hytera_RadioControlProtocol_CallRequest x => exact x.toPy_noDict
  | Hytera_RadioControlProtocol_RemoveRadioReply x => exact x.toPy_noDict
  | Hytera_RadioControlProtocol_RemoveRadioRequest x => exact x.toPy_noDict
  | Hytera_RadioControlProtocol_CallReply x => exact x.toPy_noDict
  | Hytera_RadioControlProtocol x => exact x.toPy_noDict
  | Hytera_RadioRegistrationService x => exact x.toPy_noDict
  | Hytera_TelemetryProtocol_StandardStatusReport x => exact x.toPy_noDict
  | Hytera_TelemetryProtocol_VioExtendedStatus x => exact x.toPy_noDict
  | Hytera_TelemetryProtocol_RemoteControlAnswer x => exact x.toPy_noDict
  | Hytera_TelemetryProtocol_RemoteControlRequest x => exact x.toPy_noDict
  | Hytera_TelemetryProtocol_ExtendedStatusReport x => exact x.toPy_noDict
  | Hytera_TelemetryProtocol_StandardStatusRequest x => exact x.toPy_noDict
  | Hytera_TelemetryProtocol x => exact x.toPy_noDict
  | Hytera_TextMessageProtocol x => exact x.toPy_noDict
  | Hytera_HyteraDmrApplicationProtocol_UndefinedProtocol x => exact x.toPy_noDict
  | Hytera_HyteraDmrApplicationProtocol x => exact x.toPy_noDict
  | Hytera_HyteraRadioNetworkProtocol x => exact x.toPy_noDict
  | Hytera_HyteraSimpleTransportReliabilityProtocol_Option x => exact x.toPy_noDict
  | Hytera_HyteraSimpleTransportReliabilityProtocol x => exact x.toPy_noDict
  | Hytera_IpSiteConnectHeartbeat_Keepalive x => exact x.toPy_noDict
  | Hytera_IpSiteConnectHeartbeat_PingPong x => exact x.toPy_noDict
  | Hytera_IpSiteConnectHeartbeat_Unknown x => exact x.toPy_noDict
  | Hytera_IpSiteConnectHeartbeat x => exact x.toPy_noDict
  | Hytera_IpSiteConnectProtocol x => exact x.toPy_noDict
  | Hytera_RealTimeTransportProtocol_FixedHeader x => exact x.toPy_noDict
  | Hytera_RealTimeTransportProtocol_HeaderExtension x => exact x.toPy_noDict
  | Hytera_RealTimeTransportProtocol x => exact x.toPy_noDict
  | Etsi_DmrCsbk_NegativeAckResponseData x => exact x.toPy_noDict
  | Etsi_DmrCsbk_ServiceOptions x => exact x.toPy_noDict
  | Etsi_DmrCsbk_UnitToUnitVoiceRequestData x => exact x.toPy_noDict
  | Etsi_DmrCsbk_PreambleData x => exact x.toPy_noDict
  | Etsi_DmrCsbk_ChannelTimingData x => exact x.toPy_noDict
  | Etsi_DmrCsbk_BsOutboundActivationData x => exact x.toPy_noDict
  | Etsi_DmrCsbk_UnitToUnitVoiceAnswerData x => exact x.toPy_noDict
  | Etsi_DmrCsbk x => exact x.toPy_noDict
  | Etsi_DmrData_Rate1LastBlockUnconfirmed x => exact x.toPy_noDict
  | Etsi_DmrData_Rate12LastBlockConfirmed x => exact x.toPy_noDict
  | Etsi_DmrData_Rate12Confirmed x => exact x.toPy_noDict
  | Etsi_DmrData_Rate34LastBlockUnconfirmed x => exact x.toPy_noDict
  | Etsi_DmrData_Rate1LastBlockConfirmed x => exact x.toPy_noDict
  | Etsi_DmrData_Rate1Unconfirmed x => exact x.toPy_noDict
  | Etsi_DmrData_UdtLastBlock x => exact x.toPy_noDict
  | Etsi_DmrData_Rate34Confirmed x => exact x.toPy_noDict
  | Etsi_DmrData_Rate34LastBlockConfirmed x => exact x.toPy_noDict
  | Etsi_DmrData_Rate34Unconfirmed x => exact x.toPy_noDict
  | Etsi_DmrData_Rate12LastBlockUnconfirmed x => exact x.toPy_noDict
  | Etsi_DmrData_Rate1Confirmed x => exact x.toPy_noDict
  | Etsi_DmrData_Rate12Unconfirmed x => exact x.toPy_noDict
  | Etsi_DmrData x => exact x.toPy_noDict
  | Etsi_DmrDataHeader_DataHeaderShortRaw x => exact x.toPy_noDict
  | Etsi_DmrDataHeader_DataHeaderProprietary x => exact x.toPy_noDict
  | Etsi_DmrDataHeader_DataHeaderUndefined x => exact x.toPy_noDict
  | Etsi_DmrDataHeader_DataHeaderShortStatusPrecoded x => exact x.toPy_noDict
  | Etsi_DmrDataHeader_DataHeaderResponse x => exact x.toPy_noDict
  | Etsi_DmrDataHeader_DataHeaderConfirmed x => exact x.toPy_noDict
  | Etsi_DmrDataHeader_DataHeaderUnconfirmed x => exact x.toPy_noDict
  | Etsi_DmrDataHeader_DataHeaderShortDefined x => exact x.toPy_noDict
  | Etsi_DmrDataHeader_DataHeaderUdt x => exact x.toPy_noDict
  | Etsi_DmrDataHeader x => exact x.toPy_noDict
  | Etsi_DmrIpUdp_UdpIpv4CompressedHeader x => exact x.toPy_noDict
  | Etsi_DmrIpUdp x => exact x.toPy_noDict
  | Etsi_FullLinkControl_GpsInfoLcPdu x => exact x.toPy_noDict
  | Etsi_FullLinkControl_GroupVoiceChannelUser x => exact x.toPy_noDict
  | Etsi_FullLinkControl_UnitToUnitVoiceChannelUser x => exact x.toPy_noDict
  | Etsi_FullLinkControl_TalkerAliasHeader x => exact x.toPy_noDict
  | Etsi_FullLinkControl_TalkerAliasContinuation x => exact x.toPy_noDict
  | Etsi_FullLinkControl x => exact x.toPy_noDict
  | Homebrew_Homebrew2015_TypeMasterPing x => exact x.toPy_noDict
  | Homebrew_Homebrew2015_TypeRepeaterPong x => exact x.toPy_noDict
  | Homebrew_Homebrew2015_TypeRepeaterClosing x => exact x.toPy_noDict
  | Homebrew_Homebrew2015_TypeRepeaterConfiguration x => exact x.toPy_noDict
  | Homebrew_Homebrew2015_TypeRepeaterConfigurationOrClosing x => exact x.toPy_noDict
  | Homebrew_Homebrew2015_TypeRepeaterLoginResponse x => exact x.toPy_noDict
  | Homebrew_Homebrew2015_TypeRepeaterLoginRequest x => exact x.toPy_noDict
  | Homebrew_Homebrew2015_TypeMasterNotAccept x => exact x.toPy_noDict
  | Homebrew_Homebrew2015_TypeMasterRepeaterAck x => exact x.toPy_noDict
  | Homebrew_Homebrew2015_TypeMasterClosing x => exact x.toPy_noDict
  | Homebrew_Homebrew2015_TypeDmrData x => exact x.toPy_noDict
  | Homebrew_Homebrew2015_TypeRepeaterOptions x => exact x.toPy_noDict
  | Homebrew_Homebrew2015 x => exact x.toPy_noDict
  | Homebrew_Mmdvm2020_TypeMasterPong x => exact x.toPy_noDict
  | Homebrew_Mmdvm2020_TypeRadioPosition x => exact x.toPy_noDict
  | Homebrew_Mmdvm2020_TypeTalkerAlias x => exact x.toPy_noDict
  | Homebrew_Mmdvm2020_TypeRepeaterClosing x => exact x.toPy_noDict
  | Homebrew_Mmdvm2020_TypeRepeaterConfiguration x => exact x.toPy_noDict
  | Homebrew_Mmdvm2020_TypeRepeaterConfigurationOrClosing x => exact x.toPy_noDict
  | Homebrew_Mmdvm2020_TypeRepeaterLoginResponse x => exact x.toPy_noDict
  | Homebrew_Mmdvm2020_TypeRepeaterLoginRequest x => exact x.toPy_noDict
  | Homebrew_Mmdvm2020_TypeMasterNotAccept x => exact x.toPy_noDict
  | Homebrew_Mmdvm2020_TypeUnknown x => exact x.toPy_noDict
  | Homebrew_Mmdvm2020_TypeMasterRepeaterAck x => exact x.toPy_noDict
  | Homebrew_Mmdvm2020_TypeMasterClosing x => exact x.toPy_noDict
  | Homebrew_Mmdvm2020_TypeDmrData x => exact x.toPy_noDict
  | Homebrew_Mmdvm2020_TypeRepeaterBeacon x => exact x.toPy_noDict
  | Homebrew_Mmdvm2020_TypeRepeaterOptions x => exact x.toPy_noDict
  | Homebrew_Mmdvm2020_TypeRepeaterPing x => exact x.toPy_noDict
  | Homebrew_Mmdvm2020 x => exact x.toPy_noDict
  | Motorola_AutomaticRegistrationService_MessageHeaderBits x => exact x.toPy_noDict
  | Motorola_AutomaticRegistrationService_DeviceRegistrationAcknowledgementHeader x => exact x.toPy_noDict
  | Motorola_AutomaticRegistrationService_DeviceRegistrationAcknowledgementFailureReason x => exact x.toPy_noDict
  | Motorola_AutomaticRegistrationService_AcknowledgementMessage x => exact x.toPy_noDict
  | Motorola_AutomaticRegistrationService_DeviceRegistrationMessageHeader x => exact x.toPy_noDict
  | Motorola_AutomaticRegistrationService_DeviceDeregistrationMessage x => exact x.toPy_noDict
  | Motorola_AutomaticRegistrationService_DeviceRegistrationMessage x => exact x.toPy_noDict
  | Motorola_AutomaticRegistrationService_ArsQueryMessage x => exact x.toPy_noDict
  | Motorola_AutomaticRegistrationService x => exact x.toPy_noDict
  | Motorola_MotorolaBinaryXml_OpaqueElementValue x => exact x.toPy_noDict
  | Motorola_MotorolaBinaryXml_Opaque1byteValue x => exact x.toPy_noDict
  | Motorola_MotorolaBinaryXml_Uintvar x => exact x.toPy_noDict
  | Motorola_MotorolaBinaryXml_ConstantDataTableReference x => exact x.toPy_noDict
  | Motorola_MotorolaBinaryXml_LrrpElement x => exact x.toPy_noDict
  | Motorola_MotorolaBinaryXml_LrrpImmediateRequestNcdt x => exact x.toPy_noDict
  | Motorola_MotorolaBinaryXml_Opaque3byteValue x => exact x.toPy_noDict
  | Motorola_MotorolaBinaryXml_Sintvar x => exact x.toPy_noDict
  | Motorola_MotorolaBinaryXml_Sfloatvar x => exact x.toPy_noDict
  | Motorola_MotorolaBinaryXml_Opaque5byteValue x => exact x.toPy_noDict
  | Motorola_MotorolaBinaryXml_Ufloatvar x => exact x.toPy_noDict
  | Motorola_MotorolaBinaryXml_MbxmlDocument x => exact x.toPy_noDict
  | Motorola_MotorolaBinaryXml_Opaque2byteValue x => exact x.toPy_noDict
  | Motorola_MotorolaBinaryXml_Opaque4byteValue x => exact x.toPy_noDict
  | Motorola_MotorolaBinaryXml x => exact x.toPy_noDict
  | Motorola_TextMessageProtocol_MessageHeaderBits x => exact x.toPy_noDict
  | Motorola_TextMessageProtocol_TextMessageHeaderSequenceAndEncoding x => exact x.toPy_noDict
  | Motorola_TextMessageProtocol_TextMessage x => exact x.toPy_noDict
  | Motorola_TextMessageProtocol_TmsServiceAvailabilityHeader x => exact x.toPy_noDict
  | Motorola_TextMessageProtocol_TmsServiceAvailability x => exact x.toPy_noDict
  | Motorola_TextMessageProtocol_TmsAcknowledgementHeaderSequenceNumber x => exact x.toPy_noDict
  | Motorola_TextMessageProtocol_TmsAcknowledgement x => exact x.toPy_noDict
  | Motorola_TextMessageProtocol_TmsServiceAvailabilityAcknowledgement x => exact x.toPy_noDict
  | Motorola_TextMessageProtocol x => exact x.toPy_noDict
  | used_IpSiteConnectProtocol x ps => exact ipsc_accesses_noDict x ps

/-- C45: every object of the library, in whatever state of use, is printed as the one dictionary the specification allows, and no
protocol object remains in it. -/
theorem C45_library (v : PyVal) (h : LibraryObject v) :
    ∃ cls attrs items, v = .struct cls attrs ∧ prettyprint v = .ok (.dict items) ∧ Printed v (.dict items) ∧
      noObject (.dict items) := by
  have hs : ∃ cls attrs, v = .struct cls attrs := by
    cases h with
    | used_IpSiteConnectProtocol x ps => exact ⟨_, _, rfl⟩
    | _ => exact ⟨_, _, rfl⟩
  obtain ⟨cls, attrs, rfl⟩ := hs
  obtain ⟨items, h1, h2, _⟩ := C45_structure cls attrs
  obtain ⟨items', h1', h3⟩ := C45_no_object cls attrs h.noDict
  rw [h1] at h1'
  cases h1'
  exact ⟨cls, attrs, items, rfl, h1, (h2 _).2 rfl, h3⟩

example (x : Hytera.RadioIp) := C45_library x.toPy (.Hytera_RadioIp x)

/-- A radio registration with its nested address: three levels, the bookkeeping attributes gone. -/
example : prettyprint (Hytera.RadioIp.toPy ⟨10, 0, 4, 210⟩) =
    .ok (.dict [("subnet", .int 10), ("radio_id_1", .int 0), ("radio_id_2", .int 4), ("radio_id_3", .int 210)]) := by
  simp [Hytera.RadioIp.toPy, prettyprint, PyVal.object, PyVal.attr, prettyAttrs, hiddenAttributes, prettyValue]

/-- A list of objects in an object, and a list in a list. -/
example : prettyprint (.struct "Outer" [("_io", .stream), ("n", .int 1),
      ("items", .list [.struct "Inner" [("_parent", .backref), ("a", .bytes [1, 2])], .list [.struct "Inner" []], .none])]) =
    .ok (.dict [("n", .int 1), ("items", .list [.dict [("a", .bytes [1, 2])], .list [.dict []], .none])]) := by
  simp [prettyprint, prettyAttrs, prettyItems, hiddenAttributes, prettyValue]

end Dmr.Tools
