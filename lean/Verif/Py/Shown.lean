import Verif.Py.Injective
import Verif.Enums
import Verif.Model.Tools.PyView
/-
Generated by tools/mkshown.py: every object of a model can be told from its attributes.
-/

open Dmr.Py.Shown

namespace Dmr.Hytera

theorem RadioIp.toPy_inj {x y : RadioIp} (h : x.toPy = y.toPy) : x = y := by
  have h := object_attrs h
  obtain ⟨h0, h⟩ := attr h
  replace h0 : x.subnet = y.subnet := nat h0
  obtain ⟨h1, h⟩ := attr h
  replace h1 : x.radio_id_1 = y.radio_id_1 := nat h1
  obtain ⟨h2, h⟩ := attr h
  replace h2 : x.radio_id_2 = y.radio_id_2 := nat h2
  obtain ⟨h3, h⟩ := attr h
  replace h3 : x.radio_id_3 = y.radio_id_3 := nat h3
  cases x; cases y
  dsimp only at h0 h1 h2 h3
  subst h0 h1 h2 h3
  rfl

end Dmr.Hytera

namespace Dmr.Hytera

theorem RadioId.toPy_inj {x y : RadioId} (h : x.toPy = y.toPy) : x = y := by
  have h := object_attrs h
  obtain ⟨h0, h⟩ := attr h
  replace h0 : x.radio_id_raw = y.radio_id_raw := nat h0
  cases x; cases y
  dsimp only at h0
  subst h0
  rfl

end Dmr.Hytera

namespace Dmr.Hytera

theorem Gpsdata.toPy_inj {x y : Gpsdata} (h : x.toPy = y.toPy) : x = y := by
  have h := object_attrs h
  obtain ⟨h0, h⟩ := attr h
  replace h0 : x.gps_status = y.gps_status := bytes h0
  obtain ⟨h1, h⟩ := attr h
  replace h1 : x.gps_time = y.gps_time := bytes h1
  obtain ⟨h2, h⟩ := attr h
  replace h2 : x.gps_date = y.gps_date := bytes h2
  obtain ⟨h3, h⟩ := attr h
  replace h3 : x.north_south = y.north_south := bytes h3
  obtain ⟨h4, h⟩ := attr h
  replace h4 : x.latitude = y.latitude := bytes h4
  obtain ⟨h5, h⟩ := attr h
  replace h5 : x.east_west = y.east_west := bytes h5
  obtain ⟨h6, h⟩ := attr h
  replace h6 : x.longitude = y.longitude := bytes h6
  obtain ⟨h7, h⟩ := attr h
  replace h7 : x.speed = y.speed := bytes h7
  obtain ⟨h8, h⟩ := attr h
  replace h8 : x.direction = y.direction := bytes h8
  cases x; cases y
  dsimp only at h0 h1 h2 h3 h4 h5 h6 h7 h8
  subst h0 h1 h2 h3 h4 h5 h6 h7 h8
  rfl

end Dmr.Hytera

namespace Dmr.Hytera

theorem Datetimestring.toPy_inj {x y : Datetimestring} (h : x.toPy = y.toPy) : x = y := by
  have h := object_attrs h
  obtain ⟨h0, h⟩ := attr h
  replace h0 : x.datetime = y.datetime := str h0
  cases x; cases y
  dsimp only at h0
  subst h0
  rfl

end Dmr.Hytera

namespace Dmr.Hytera

theorem Intervalstring.toPy_inj {x y : Intervalstring} (h : x.toPy = y.toPy) : x = y := by
  have h := object_attrs h
  obtain ⟨h0, h⟩ := attr h
  replace h0 : x.interval = y.interval := str h0
  cases x; cases y
  dsimp only at h0
  subst h0
  rfl

end Dmr.Hytera

namespace Dmr.Hytera

theorem DataDeliveryStates.toPy_inj {x y : DataDeliveryStates} (h : x.toPy = y.toPy) : x = y := by
  have h := object_attrs h
  obtain ⟨h0, h⟩ := attr h
  replace h0 : x.reserved = y.reserved := bytes h0
  obtain ⟨h1, h⟩ := attr h
  replace h1 : x.state_type = y.state_type := enum h1
  obtain ⟨h2, h⟩ := attr h
  replace h2 : x.message_length = y.message_length := nat h2
  obtain ⟨h3, h⟩ := attr h
  replace h3 : x.radio_ip = y.radio_ip := RadioIp.toPy_inj h3
  obtain ⟨h4, h⟩ := attr h
  replace h4 : x.protocol_opcode = y.protocol_opcode := nat h4
  obtain ⟨h5, h⟩ := attr h
  replace h5 : x.result = y.result := enum h5
  cases x; cases y
  dsimp only at h0 h1 h2 h3 h4 h5
  subst h0 h1 h2 h3 h4 h5
  rfl

end Dmr.Hytera

namespace Dmr.Hytera

theorem DataTransmitProtocol.LastDataSlice.toPy_inj {x y : DataTransmitProtocol.LastDataSlice} (h : x.toPy = y.toPy) : x = y := by
  have h := object_attrs h
  obtain ⟨h0, h⟩ := attr h
  replace h0 : x.destination_ip = y.destination_ip := RadioIp.toPy_inj h0
  obtain ⟨h1, h⟩ := attr h
  replace h1 : x.source_ip = y.source_ip := RadioIp.toPy_inj h1
  cases x; cases y
  dsimp only at h0 h1
  subst h0 h1
  rfl

theorem DataTransmitProtocol.DtpRequest.toPy_inj {x y : DataTransmitProtocol.DtpRequest} (h : x.toPy = y.toPy) : x = y := by
  have h := object_attrs h
  obtain ⟨h0, h⟩ := attr h
  replace h0 : x.destination_ip = y.destination_ip := RadioIp.toPy_inj h0
  obtain ⟨h1, h⟩ := attr h
  replace h1 : x.source_ip = y.source_ip := RadioIp.toPy_inj h1
  obtain ⟨h2, h⟩ := attr h
  replace h2 : x.file_size = y.file_size := nat h2
  obtain ⟨h3, h⟩ := attr h
  replace h3 : x.file_name = y.file_name := str h3
  cases x; cases y
  dsimp only at h0 h1 h2 h3
  subst h0 h1 h2 h3
  rfl

theorem DataTransmitProtocol.DataSliceAnswer.toPy_inj {x y : DataTransmitProtocol.DataSliceAnswer} (h : x.toPy = y.toPy) : x = y := by
  have h := object_attrs h
  obtain ⟨h0, h⟩ := attr h
  replace h0 : x.destination_ip = y.destination_ip := RadioIp.toPy_inj h0
  obtain ⟨h1, h⟩ := attr h
  replace h1 : x.source_ip = y.source_ip := RadioIp.toPy_inj h1
  obtain ⟨h2, h⟩ := attr h
  replace h2 : x.block_number = y.block_number := nat h2
  obtain ⟨h3, h⟩ := attr h
  replace h3 : x.result = y.result := enum h3
  cases x; cases y
  dsimp only at h0 h1 h2 h3
  subst h0 h1 h2 h3
  rfl

theorem DataTransmitProtocol.DataSliceTransmit.toPy_inj {x y : DataTransmitProtocol.DataSliceTransmit} (h : x.toPy = y.toPy) : x = y := by
  have h := object_attrs h
  obtain ⟨h0, h⟩ := attr h
  replace h0 : x.destination_ip = y.destination_ip := RadioIp.toPy_inj h0
  obtain ⟨h1, h⟩ := attr h
  replace h1 : x.source_ip = y.source_ip := RadioIp.toPy_inj h1
  obtain ⟨h2, h⟩ := attr h
  replace h2 : x.block_number = y.block_number := nat h2
  obtain ⟨h3, h⟩ := attr h
  replace h3 : x.file_data = y.file_data := bytes h3
  cases x; cases y
  dsimp only at h0 h1 h2 h3
  subst h0 h1 h2 h3
  rfl

theorem DataTransmitProtocol.LastDataSliceAnswer.toPy_inj {x y : DataTransmitProtocol.LastDataSliceAnswer} (h : x.toPy = y.toPy) : x = y := by
  have h := object_attrs h
  obtain ⟨h0, h⟩ := attr h
  replace h0 : x.destination_ip = y.destination_ip := RadioIp.toPy_inj h0
  obtain ⟨h1, h⟩ := attr h
  replace h1 : x.source_ip = y.source_ip := RadioIp.toPy_inj h1
  obtain ⟨h2, h⟩ := attr h
  replace h2 : x.result = y.result := enum h2
  cases x; cases y
  dsimp only at h0 h1 h2
  subst h0 h1 h2
  rfl

theorem DataTransmitProtocol.DtpAnswer.toPy_inj {x y : DataTransmitProtocol.DtpAnswer} (h : x.toPy = y.toPy) : x = y := by
  have h := object_attrs h
  obtain ⟨h0, h⟩ := attr h
  replace h0 : x.destination_ip = y.destination_ip := RadioIp.toPy_inj h0
  obtain ⟨h1, h⟩ := attr h
  replace h1 : x.source_ip = y.source_ip := RadioIp.toPy_inj h1
  obtain ⟨h2, h⟩ := attr h
  replace h2 : x.result = y.result := enum h2
  cases x; cases y
  dsimp only at h0 h1 h2
  subst h0 h1 h2
  rfl

theorem DataTransmitProtocol.DataUnion.toPy_inj {x y : DataTransmitProtocol.DataUnion} (h : x.toPy = y.toPy) : x = y := by
  cases x <;> cases y <;> first
    | exact absurd (object_class h) (by decide)
    | exact congrArg _ (DataTransmitProtocol.DtpRequest.toPy_inj h)
    | exact congrArg _ (DataTransmitProtocol.DataSliceTransmit.toPy_inj h)
    | exact congrArg _ (DataTransmitProtocol.DataSliceAnswer.toPy_inj h)
    | exact congrArg _ (DataTransmitProtocol.LastDataSliceAnswer.toPy_inj h)
    | exact congrArg _ (DataTransmitProtocol.DtpAnswer.toPy_inj h)
    | exact congrArg _ (DataTransmitProtocol.LastDataSlice.toPy_inj h)

theorem DataTransmitProtocol.toPy_inj {x y : DataTransmitProtocol} (h : x.toPy = y.toPy) : x = y := by
  have h := object_attrs h
  obtain ⟨h0, h⟩ := attr h
  replace h0 : x.service_type = y.service_type := enum h0
  obtain ⟨h1, h⟩ := attr h
  replace h1 : x.service_specific_type = y.service_specific_type := enum h1
  obtain ⟨h2, h⟩ := attr h
  replace h2 : x.message_length = y.message_length := nat h2
  obtain ⟨h3, h⟩ := opt h (by names) (by names)
  replace h3 : x.data = y.data := option DataTransmitProtocol.DataUnion.toPy_inj h3
  cases x; cases y
  dsimp only at h0 h1 h2 h3
  subst h0 h1 h2 h3
  rfl

end Dmr.Hytera

namespace Dmr.Hytera

theorem LocationProtocol.TriggeredReportStopAnswer.toPy_inj {x y : LocationProtocol.TriggeredReportStopAnswer} (h : x.toPy = y.toPy) : x = y := by
  have h := object_attrs h
  obtain ⟨h0, h⟩ := attr h
  replace h0 : x.request_id = y.request_id := nat h0
  obtain ⟨h1, h⟩ := attr h
  replace h1 : x.radio_ip = y.radio_ip := RadioIp.toPy_inj h1
  obtain ⟨h2, h⟩ := attr h
  replace h2 : x.result = y.result := enum h2
  cases x; cases y
  dsimp only at h0 h1 h2
  subst h0 h1 h2
  rfl

theorem LocationProtocol.ConditionReportRequest.toPy_inj {x y : LocationProtocol.ConditionReportRequest} (h : x.toPy = y.toPy) : x = y := by
  have h := object_attrs h
  obtain ⟨h0, h⟩ := attr h
  replace h0 : x.request_id = y.request_id := nat h0
  obtain ⟨h1, h⟩ := attr h
  replace h1 : x.radio_ip = y.radio_ip := RadioIp.toPy_inj h1
  obtain ⟨h2, h⟩ := attr h
  replace h2 : x.trigger_type = y.trigger_type := nat h2
  obtain ⟨h3, h⟩ := attr h
  replace h3 : x.distance = y.distance := nat h3
  obtain ⟨h4, h⟩ := attr h
  replace h4 : x.start_time = y.start_time := Datetimestring.toPy_inj h4
  obtain ⟨h5, h⟩ := attr h
  replace h5 : x.stop_time = y.stop_time := Datetimestring.toPy_inj h5
  obtain ⟨h6, h⟩ := attr h
  replace h6 : x.interval = y.interval := Intervalstring.toPy_inj h6
  obtain ⟨h7, h⟩ := attr h
  replace h7 : x.max_interval = y.max_interval := Intervalstring.toPy_inj h7
  cases x; cases y
  dsimp only at h0 h1 h2 h3 h4 h5 h6 h7
  subst h0 h1 h2 h3 h4 h5 h6 h7
  rfl

theorem LocationProtocol.QuickGpsPayload.toPy_inj {x y : LocationProtocol.QuickGpsPayload} (h : x.toPy = y.toPy) : x = y := by
  have h := object_attrs h
  obtain ⟨h0, h⟩ := attr h
  replace h0 : x.start_time = y.start_time := Datetimestring.toPy_inj h0
  obtain ⟨h1, h⟩ := attr h
  replace h1 : x.stop_time = y.stop_time := Datetimestring.toPy_inj h1
  obtain ⟨h2, h⟩ := attr h
  replace h2 : x.interval = y.interval := Intervalstring.toPy_inj h2
  obtain ⟨h3, h⟩ := attr h
  replace h3 : x.send_step = y.send_step := nat h3
  obtain ⟨h4, h⟩ := attr h
  replace h4 : x.channel_use_percentage = y.channel_use_percentage := nat h4
  obtain ⟨h5, h⟩ := attr h
  replace h5 : x.send_order = y.send_order := nat h5
  cases x; cases y
  dsimp only at h0 h1 h2 h3 h4 h5
  subst h0 h1 h2 h3 h4 h5
  rfl

theorem LocationProtocol.ConditionQuickGpsRequest.toPy_inj {x y : LocationProtocol.ConditionQuickGpsRequest} (h : x.toPy = y.toPy) : x = y := by
  have h := object_attrs h
  obtain ⟨h0, h⟩ := attr h
  replace h0 : x.request_id = y.request_id := nat h0
  obtain ⟨h1, h⟩ := attr h
  replace h1 : x.radio_ip = y.radio_ip := RadioIp.toPy_inj h1
  obtain ⟨h2, h⟩ := attr h
  replace h2 : x.cmd_type = y.cmd_type := enum h2
  obtain ⟨h3, h⟩ := opt h (by names) (by names)
  replace h3 : x.quick_gps_payload = y.quick_gps_payload := option LocationProtocol.QuickGpsPayload.toPy_inj h3
  cases x; cases y
  dsimp only at h0 h1 h2 h3
  subst h0 h1 h2 h3
  rfl

theorem LocationProtocol.ConditionReport.toPy_inj {x y : LocationProtocol.ConditionReport} (h : x.toPy = y.toPy) : x = y := by
  have h := object_attrs h
  obtain ⟨h0, h⟩ := attr h
  replace h0 : x.request_id = y.request_id := nat h0
  obtain ⟨h1, h⟩ := attr h
  replace h1 : x.radio_ip = y.radio_ip := RadioIp.toPy_inj h1
  obtain ⟨h2, h⟩ := attr h
  replace h2 : x.gpsdata = y.gpsdata := Gpsdata.toPy_inj h2
  cases x; cases y
  dsimp only at h0 h1 h2
  subst h0 h1 h2
  rfl

theorem LocationProtocol.EmergencyReport.toPy_inj {x y : LocationProtocol.EmergencyReport} (h : x.toPy = y.toPy) : x = y := by
  have h := object_attrs h
  obtain ⟨h0, h⟩ := attr h
  replace h0 : x.radio_ip = y.radio_ip := RadioIp.toPy_inj h0
  obtain ⟨h1, h⟩ := attr h
  replace h1 : x.emergency_type = y.emergency_type := nat h1
  obtain ⟨h2, h⟩ := attr h
  replace h2 : x.gpsdata = y.gpsdata := Gpsdata.toPy_inj h2
  cases x; cases y
  dsimp only at h0 h1 h2
  subst h0 h1 h2
  rfl

theorem LocationProtocol.TriggeredReportAnswer.toPy_inj {x y : LocationProtocol.TriggeredReportAnswer} (h : x.toPy = y.toPy) : x = y := by
  have h := object_attrs h
  obtain ⟨h0, h⟩ := attr h
  replace h0 : x.request_id = y.request_id := nat h0
  obtain ⟨h1, h⟩ := attr h
  replace h1 : x.radio_ip = y.radio_ip := RadioIp.toPy_inj h1
  obtain ⟨h2, h⟩ := attr h
  replace h2 : x.result = y.result := enum h2
  cases x; cases y
  dsimp only at h0 h1 h2
  subst h0 h1 h2
  rfl

theorem LocationProtocol.StandardAnswerWithRssi.toPy_inj {x y : LocationProtocol.StandardAnswerWithRssi} (h : x.toPy = y.toPy) : x = y := by
  have h := object_attrs h
  obtain ⟨h0, h⟩ := attr h
  replace h0 : x.request_id = y.request_id := nat h0
  obtain ⟨h1, h⟩ := attr h
  replace h1 : x.radio_ip = y.radio_ip := RadioIp.toPy_inj h1
  obtain ⟨h2, h⟩ := attr h
  replace h2 : x.result = y.result := enum h2
  obtain ⟨h3, h⟩ := attr h
  replace h3 : x.gpsdata = y.gpsdata := Gpsdata.toPy_inj h3
  obtain ⟨h4, h⟩ := attr h
  replace h4 : x.rssi_value = y.rssi_value := int h4
  cases x; cases y
  dsimp only at h0 h1 h2 h3 h4
  subst h0 h1 h2 h3 h4
  rfl

theorem LocationProtocol.StandardRequest.toPy_inj {x y : LocationProtocol.StandardRequest} (h : x.toPy = y.toPy) : x = y := by
  have h := object_attrs h
  obtain ⟨h0, h⟩ := attr h
  replace h0 : x.request_id = y.request_id := nat h0
  obtain ⟨h1, h⟩ := attr h
  replace h1 : x.radio_ip = y.radio_ip := RadioIp.toPy_inj h1
  cases x; cases y
  dsimp only at h0 h1
  subst h0 h1
  rfl

theorem LocationProtocol.TriggeredReportRequest.toPy_inj {x y : LocationProtocol.TriggeredReportRequest} (h : x.toPy = y.toPy) : x = y := by
  have h := object_attrs h
  obtain ⟨h0, h⟩ := attr h
  replace h0 : x.request_id = y.request_id := nat h0
  obtain ⟨h1, h⟩ := attr h
  replace h1 : x.radio_ip = y.radio_ip := RadioIp.toPy_inj h1
  obtain ⟨h2, h⟩ := attr h
  replace h2 : x.start_time = y.start_time := Datetimestring.toPy_inj h2
  obtain ⟨h3, h⟩ := attr h
  replace h3 : x.stop_time = y.stop_time := Datetimestring.toPy_inj h3
  obtain ⟨h4, h⟩ := attr h
  replace h4 : x.interval = y.interval := Intervalstring.toPy_inj h4
  cases x; cases y
  dsimp only at h0 h1 h2 h3 h4
  subst h0 h1 h2 h3 h4
  rfl

theorem LocationProtocol.StandardAnswer.toPy_inj {x y : LocationProtocol.StandardAnswer} (h : x.toPy = y.toPy) : x = y := by
  have h := object_attrs h
  obtain ⟨h0, h⟩ := attr h
  replace h0 : x.request_id = y.request_id := nat h0
  obtain ⟨h1, h⟩ := attr h
  replace h1 : x.radio_ip = y.radio_ip := RadioIp.toPy_inj h1
  obtain ⟨h2, h⟩ := attr h
  replace h2 : x.result = y.result := enum h2
  obtain ⟨h3, h⟩ := attr h
  replace h3 : x.gpsdata = y.gpsdata := Gpsdata.toPy_inj h3
  cases x; cases y
  dsimp only at h0 h1 h2 h3
  subst h0 h1 h2 h3
  rfl

theorem LocationProtocol.ConditionReportAnswer.toPy_inj {x y : LocationProtocol.ConditionReportAnswer} (h : x.toPy = y.toPy) : x = y := by
  have h := object_attrs h
  obtain ⟨h0, h⟩ := attr h
  replace h0 : x.request_id = y.request_id := nat h0
  obtain ⟨h1, h⟩ := attr h
  replace h1 : x.radio_ip = y.radio_ip := RadioIp.toPy_inj h1
  obtain ⟨h2, h⟩ := attr h
  replace h2 : x.trigger_type = y.trigger_type := enum h2
  obtain ⟨h3, h⟩ := attr h
  replace h3 : x.result = y.result := enum h3
  cases x; cases y
  dsimp only at h0 h1 h2 h3
  subst h0 h1 h2 h3
  rfl

theorem LocationProtocol.EmergencyReportStopRequest.toPy_inj {x y : LocationProtocol.EmergencyReportStopRequest} (h : x.toPy = y.toPy) : x = y := by
  have h := object_attrs h
  obtain ⟨h0, h⟩ := attr h
  replace h0 : x.request_id = y.request_id := nat h0
  obtain ⟨h1, h⟩ := attr h
  replace h1 : x.radio_ip = y.radio_ip := RadioIp.toPy_inj h1
  cases x; cases y
  dsimp only at h0 h1
  subst h0 h1
  rfl

theorem LocationProtocol.ConditionQuickGpsAnswer.toPy_inj {x y : LocationProtocol.ConditionQuickGpsAnswer} (h : x.toPy = y.toPy) : x = y := by
  have h := object_attrs h
  obtain ⟨h0, h⟩ := attr h
  replace h0 : x.request_id = y.request_id := nat h0
  obtain ⟨h1, h⟩ := attr h
  replace h1 : x.radio_ip = y.radio_ip := RadioIp.toPy_inj h1
  obtain ⟨h2, h⟩ := attr h
  replace h2 : x.cmd_type = y.cmd_type := enum h2
  obtain ⟨h3, h⟩ := attr h
  replace h3 : x.result = y.result := enum h3
  cases x; cases y
  dsimp only at h0 h1 h2 h3
  subst h0 h1 h2 h3
  rfl

theorem LocationProtocol.TriggeredReport.toPy_inj {x y : LocationProtocol.TriggeredReport} (h : x.toPy = y.toPy) : x = y := by
  have h := object_attrs h
  obtain ⟨h0, h⟩ := attr h
  replace h0 : x.request_id = y.request_id := nat h0
  obtain ⟨h1, h⟩ := attr h
  replace h1 : x.radio_ip = y.radio_ip := RadioIp.toPy_inj h1
  obtain ⟨h2, h⟩ := attr h
  replace h2 : x.time_remaining = y.time_remaining := Intervalstring.toPy_inj h2
  obtain ⟨h3, h⟩ := attr h
  replace h3 : x.gpsdata = y.gpsdata := Gpsdata.toPy_inj h3
  cases x; cases y
  dsimp only at h0 h1 h2 h3
  subst h0 h1 h2 h3
  rfl

theorem LocationProtocol.ConditionReportWithRssi.toPy_inj {x y : LocationProtocol.ConditionReportWithRssi} (h : x.toPy = y.toPy) : x = y := by
  have h := object_attrs h
  obtain ⟨h0, h⟩ := attr h
  replace h0 : x.request_id = y.request_id := nat h0
  obtain ⟨h1, h⟩ := attr h
  replace h1 : x.radio_ip = y.radio_ip := RadioIp.toPy_inj h1
  obtain ⟨h2, h⟩ := attr h
  replace h2 : x.result = y.result := enum h2
  obtain ⟨h3, h⟩ := attr h
  replace h3 : x.gpsdata = y.gpsdata := Gpsdata.toPy_inj h3
  obtain ⟨h4, h⟩ := attr h
  replace h4 : x.rssi_value = y.rssi_value := int h4
  cases x; cases y
  dsimp only at h0 h1 h2 h3 h4
  subst h0 h1 h2 h3 h4
  rfl

theorem LocationProtocol.EmergencyReportStopAnswer.toPy_inj {x y : LocationProtocol.EmergencyReportStopAnswer} (h : x.toPy = y.toPy) : x = y := by
  have h := object_attrs h
  obtain ⟨h0, h⟩ := attr h
  replace h0 : x.request_id = y.request_id := nat h0
  obtain ⟨h1, h⟩ := attr h
  replace h1 : x.radio_ip = y.radio_ip := RadioIp.toPy_inj h1
  obtain ⟨h2, h⟩ := attr h
  replace h2 : x.result = y.result := enum h2
  cases x; cases y
  dsimp only at h0 h1 h2
  subst h0 h1 h2
  rfl

theorem LocationProtocol.TriggeredReportStopRequest.toPy_inj {x y : LocationProtocol.TriggeredReportStopRequest} (h : x.toPy = y.toPy) : x = y := by
  have h := object_attrs h
  obtain ⟨h0, h⟩ := attr h
  replace h0 : x.request_id = y.request_id := nat h0
  obtain ⟨h1, h⟩ := attr h
  replace h1 : x.radio_ip = y.radio_ip := RadioIp.toPy_inj h1
  cases x; cases y
  dsimp only at h0 h1
  subst h0 h1
  rfl

theorem LocationProtocol.DataUnion.toPy_inj {x y : LocationProtocol.DataUnion} (h : x.toPy = y.toPy) : x = y := by
  cases x <;> cases y <;> first
    | exact absurd (object_class h) (by decide)
    | exact congrArg _ (LocationProtocol.TriggeredReportAnswer.toPy_inj h)
    | exact congrArg _ (LocationProtocol.EmergencyReportStopRequest.toPy_inj h)
    | exact congrArg _ (LocationProtocol.ConditionQuickGpsRequest.toPy_inj h)
    | exact congrArg _ (LocationProtocol.ConditionReport.toPy_inj h)
    | exact congrArg _ (LocationProtocol.EmergencyReportStopAnswer.toPy_inj h)
    | exact congrArg _ (LocationProtocol.ConditionReportAnswer.toPy_inj h)
    | exact congrArg _ (LocationProtocol.StandardAnswer.toPy_inj h)
    | exact congrArg _ (LocationProtocol.StandardRequest.toPy_inj h)
    | exact congrArg _ (LocationProtocol.TriggeredReport.toPy_inj h)
    | exact congrArg _ (LocationProtocol.TriggeredReportStopAnswer.toPy_inj h)
    | exact congrArg _ (LocationProtocol.StandardAnswerWithRssi.toPy_inj h)
    | exact congrArg _ (LocationProtocol.ConditionReportWithRssi.toPy_inj h)
    | exact congrArg _ (LocationProtocol.TriggeredReportStopRequest.toPy_inj h)
    | exact congrArg _ (LocationProtocol.EmergencyReport.toPy_inj h)
    | exact congrArg _ (LocationProtocol.ConditionReportRequest.toPy_inj h)
    | exact congrArg _ (LocationProtocol.TriggeredReportRequest.toPy_inj h)
    | exact congrArg _ (LocationProtocol.ConditionQuickGpsAnswer.toPy_inj h)

theorem LocationProtocol.toPy_inj {x y : LocationProtocol} (h : x.toPy = y.toPy) : x = y := by
  have h := object_attrs h
  obtain ⟨h0, h⟩ := attr h
  replace h0 : x.opcode_header = y.opcode_header := enum h0
  obtain ⟨h1, h⟩ := attr h
  replace h1 : x.message_length = y.message_length := nat h1
  obtain ⟨h2, h⟩ := opt h (by names) (by names)
  replace h2 : x.data = y.data := option LocationProtocol.DataUnion.toPy_inj h2
  cases x; cases y
  dsimp only at h0 h1 h2
  subst h0 h1 h2
  rfl

end Dmr.Hytera

namespace Dmr.Hytera

theorem RadioControlProtocol.BroadcastStatusConfigurationReply.toPy_inj {x y : RadioControlProtocol.BroadcastStatusConfigurationReply} (h : x.toPy = y.toPy) : x = y := by
  have h := object_attrs h
  obtain ⟨h0, h⟩ := attr h
  replace h0 : x.result = y.result := enum h0
  cases x; cases y
  dsimp only at h0
  subst h0
  rfl

theorem RadioControlProtocol.BroadcastConfiguration.toPy_inj {x y : RadioControlProtocol.BroadcastConfiguration} (h : x.toPy = y.toPy) : x = y := by
  have h := object_attrs h
  obtain ⟨h0, h⟩ := attr h
  replace h0 : x.config_operation = y.config_operation := nat h0
  obtain ⟨h1, h⟩ := attr h
  replace h1 : x.config_target = y.config_target := nat h1
  cases x; cases y
  dsimp only at h0 h1
  subst h0 h1
  rfl

theorem RadioControlProtocol.BroadcastStatusConfigurationRequest.toPy_inj {x y : RadioControlProtocol.BroadcastStatusConfigurationRequest} (h : x.toPy = y.toPy) : x = y := by
  have h := object_attrs h
  obtain ⟨h0, h⟩ := attr h
  replace h0 : x.num_broadcast_configuration = y.num_broadcast_configuration := nat h0
  obtain ⟨h1, h⟩ := attr h
  replace h1 : x.broadcast_configuration = y.broadcast_configuration := list RadioControlProtocol.BroadcastConfiguration.toPy_inj h1
  cases x; cases y
  dsimp only at h0 h1
  subst h0 h1
  rfl

theorem RadioControlProtocol.RadioIdentificationReply.toPy_inj {x y : RadioControlProtocol.RadioIdentificationReply} (h : x.toPy = y.toPy) : x = y := by
  have h := object_attrs h
  obtain ⟨h0, h⟩ := opt h (by names) (by names)
  replace h0 : x.header = y.header := option bytes h0
  obtain ⟨h1, h⟩ := opt h (by names) (by names)
  replace h1 : x.text = y.text := option str h1
  obtain ⟨h2, h⟩ := opt h (by names) (by names)
  replace h2 : x.footer = y.footer := option bytes h2
  cases x; cases y
  dsimp only at h0 h1 h2
  subst h0 h1 h2
  rfl

theorem RadioControlProtocol.GenericData.toPy_inj {x y : RadioControlProtocol.GenericData} (h : x.toPy = y.toPy) : x = y := by
  have h := object_attrs h
  obtain ⟨h0, h⟩ := attr h
  replace h0 : x.data = y.data := bytes h0
  cases x; cases y
  dsimp only at h0
  subst h0
  rfl

theorem RadioControlProtocol.CallRequest.toPy_inj {x y : RadioControlProtocol.CallRequest} (h : x.toPy = y.toPy) : x = y := by
  have h := object_attrs h
  obtain ⟨h0, h⟩ := attr h
  replace h0 : x.call_type = y.call_type := enum h0
  obtain ⟨h1, h⟩ := attr h
  replace h1 : x.target_id = y.target_id := nat h1
  cases x; cases y
  dsimp only at h0 h1
  subst h0 h1
  rfl

theorem RadioControlProtocol.RemoveRadioReply.toPy_inj {x y : RadioControlProtocol.RemoveRadioReply} (h : x.toPy = y.toPy) : x = y := by
  have h := object_attrs h
  obtain ⟨h0, h⟩ := attr h
  replace h0 : x.result = y.result := enum h0
  cases x; cases y
  dsimp only at h0
  subst h0
  rfl

theorem RadioControlProtocol.RemoveRadioRequest.toPy_inj {x y : RadioControlProtocol.RemoveRadioRequest} (h : x.toPy = y.toPy) : x = y := by
  cases x; cases y; rfl

theorem RadioControlProtocol.CallReply.toPy_inj {x y : RadioControlProtocol.CallReply} (h : x.toPy = y.toPy) : x = y := by
  have h := object_attrs h
  obtain ⟨h0, h⟩ := attr h
  replace h0 : x.result = y.result := enum h0
  cases x; cases y
  dsimp only at h0
  subst h0
  rfl

theorem RadioControlProtocol.DataUnion.toPy_inj {x y : RadioControlProtocol.DataUnion} (h : x.toPy = y.toPy) : x = y := by
  cases x <;> cases y <;> first
    | exact absurd (object_class h) (by decide)
    | exact congrArg _ (RadioControlProtocol.CallReply.toPy_inj h)
    | exact congrArg _ (RadioControlProtocol.RadioIdentificationReply.toPy_inj h)
    | exact congrArg _ (RadioControlProtocol.BroadcastStatusConfigurationRequest.toPy_inj h)
    | exact congrArg _ (RadioControlProtocol.CallRequest.toPy_inj h)
    | exact congrArg _ (RadioControlProtocol.RemoveRadioRequest.toPy_inj h)
    | exact congrArg _ (RadioControlProtocol.BroadcastStatusConfigurationReply.toPy_inj h)
    | exact congrArg _ (RadioControlProtocol.RemoveRadioReply.toPy_inj h)
    | exact congrArg _ (RadioControlProtocol.GenericData.toPy_inj h)

theorem RadioControlProtocol.toPy_inj {x y : RadioControlProtocol} (h : x.toPy = y.toPy) : x = y := by
  have h := object_attrs h
  obtain ⟨h0, h⟩ := attr h
  replace h0 : x.service_type = y.service_type := enum h0
  obtain ⟨h1, h⟩ := attr h
  replace h1 : x.message_length = y.message_length := nat h1
  obtain ⟨h2, h⟩ := attr h
  replace h2 : x.data = y.data := RadioControlProtocol.DataUnion.toPy_inj h2
  cases x; cases y
  dsimp only at h0 h1 h2
  subst h0 h1 h2
  rfl

end Dmr.Hytera

namespace Dmr.Hytera

theorem RadioRegistrationService.toPy_inj {x y : RadioRegistrationService} (h : x.toPy = y.toPy) : x = y := by
  have h := object_attrs h
  obtain ⟨h0, h⟩ := attr h
  replace h0 : x.opcode = y.opcode := bytes h0
  obtain ⟨h1, h⟩ := attr h
  replace h1 : x.rrs_type = y.rrs_type := enum h1
  obtain ⟨h2, h⟩ := attr h
  replace h2 : x.message_length = y.message_length := nat h2
  obtain ⟨h3, h⟩ := attr h
  replace h3 : x.radio_ip = y.radio_ip := RadioIp.toPy_inj h3
  obtain ⟨h4, h⟩ := opt h (by names) (by names)
  replace h4 : x.result = y.result := option nat h4
  obtain ⟨h5, h⟩ := opt h (by names) (by names)
  replace h5 : x.valid_time = y.valid_time := option nat h5
  cases x; cases y
  dsimp only at h0 h1 h2 h3 h4 h5
  subst h0 h1 h2 h3 h4 h5
  rfl

end Dmr.Hytera

namespace Dmr.Hytera

theorem TelemetryProtocol.StandardStatusReport.toPy_inj {x y : TelemetryProtocol.StandardStatusReport} (h : x.toPy = y.toPy) : x = y := by
  have h := object_attrs h
  obtain ⟨h0, h⟩ := attr h
  replace h0 : x.source_ip = y.source_ip := RadioIp.toPy_inj h0
  obtain ⟨h1, h⟩ := attr h
  replace h1 : x.target_ip = y.target_ip := RadioIp.toPy_inj h1
  obtain ⟨h2, h⟩ := attr h
  replace h2 : x.pc_flag = y.pc_flag := enum h2
  obtain ⟨h3, h⟩ := attr h
  replace h3 : x.call_type = y.call_type := enum h3
  obtain ⟨h4, h⟩ := attr h
  replace h4 : x.vio_select = y.vio_select := bytes h4
  obtain ⟨h5, h⟩ := attr h
  replace h5 : x.result = y.result := enum h5
  cases x; cases y
  dsimp only at h0 h1 h2 h3 h4 h5
  subst h0 h1 h2 h3 h4 h5
  rfl

theorem TelemetryProtocol.VioExtendedStatus.toPy_inj {x y : TelemetryProtocol.VioExtendedStatus} (h : x.toPy = y.toPy) : x = y := by
  have h := object_attrs h
  obtain ⟨h0, h⟩ := attr h
  replace h0 : x.result = y.result := enum h0
  obtain ⟨h1, h⟩ := attr h
  replace h1 : x.message_length = y.message_length := nat h1
  obtain ⟨h2, h⟩ := attr h
  replace h2 : x.message = y.message := str h2
  cases x; cases y
  dsimp only at h0 h1 h2
  subst h0 h1 h2
  rfl

theorem TelemetryProtocol.RemoteControlAnswer.toPy_inj {x y : TelemetryProtocol.RemoteControlAnswer} (h : x.toPy = y.toPy) : x = y := by
  have h := object_attrs h
  obtain ⟨h0, h⟩ := attr h
  replace h0 : x.source_ip = y.source_ip := RadioIp.toPy_inj h0
  obtain ⟨h1, h⟩ := attr h
  replace h1 : x.target_ip = y.target_ip := RadioIp.toPy_inj h1
  obtain ⟨h2, h⟩ := attr h
  replace h2 : x.pc_flag = y.pc_flag := enum h2
  obtain ⟨h3, h⟩ := attr h
  replace h3 : x.call_type = y.call_type := enum h3
  obtain ⟨h4, h⟩ := attr h
  replace h4 : x.vio_select = y.vio_select := bytes h4
  obtain ⟨h5, h⟩ := attr h
  replace h5 : x.result = y.result := enum h5
  cases x; cases y
  dsimp only at h0 h1 h2 h3 h4 h5
  subst h0 h1 h2 h3 h4 h5
  rfl

theorem TelemetryProtocol.RemoteControlRequest.toPy_inj {x y : TelemetryProtocol.RemoteControlRequest} (h : x.toPy = y.toPy) : x = y := by
  have h := object_attrs h
  obtain ⟨h0, h⟩ := attr h
  replace h0 : x.source_ip = y.source_ip := RadioIp.toPy_inj h0
  obtain ⟨h1, h⟩ := attr h
  replace h1 : x.target_ip = y.target_ip := RadioIp.toPy_inj h1
  obtain ⟨h2, h⟩ := attr h
  replace h2 : x.pc_flag = y.pc_flag := enum h2
  obtain ⟨h3, h⟩ := attr h
  replace h3 : x.call_type = y.call_type := enum h3
  obtain ⟨h4, h⟩ := attr h
  replace h4 : x.vio_select = y.vio_select := bytes h4
  obtain ⟨h5, h⟩ := attr h
  replace h5 : x.operation = y.operation := enum h5
  cases x; cases y
  dsimp only at h0 h1 h2 h3 h4 h5
  subst h0 h1 h2 h3 h4 h5
  rfl

theorem TelemetryProtocol.ExtendedStatusReport.toPy_inj {x y : TelemetryProtocol.ExtendedStatusReport} (h : x.toPy = y.toPy) : x = y := by
  have h := object_attrs h
  obtain ⟨h0, h⟩ := attr h
  replace h0 : x.source_ip = y.source_ip := RadioIp.toPy_inj h0
  obtain ⟨h1, h⟩ := attr h
  replace h1 : x.target_ip = y.target_ip := RadioIp.toPy_inj h1
  obtain ⟨h2, h⟩ := attr h
  replace h2 : x.pc_flag = y.pc_flag := enum h2
  obtain ⟨h3, h⟩ := attr h
  replace h3 : x.call_type = y.call_type := enum h3
  obtain ⟨h4, h⟩ := attr h
  replace h4 : x.vio_select = y.vio_select := bytes h4
  obtain ⟨h5, h⟩ := attr h
  replace h5 : x.result_messages = y.result_messages := TelemetryProtocol.VioExtendedStatus.toPy_inj h5
  cases x; cases y
  dsimp only at h0 h1 h2 h3 h4 h5
  subst h0 h1 h2 h3 h4 h5
  rfl

theorem TelemetryProtocol.StandardStatusRequest.toPy_inj {x y : TelemetryProtocol.StandardStatusRequest} (h : x.toPy = y.toPy) : x = y := by
  have h := object_attrs h
  obtain ⟨h0, h⟩ := attr h
  replace h0 : x.source_ip = y.source_ip := RadioIp.toPy_inj h0
  obtain ⟨h1, h⟩ := attr h
  replace h1 : x.target_ip = y.target_ip := RadioIp.toPy_inj h1
  obtain ⟨h2, h⟩ := attr h
  replace h2 : x.pc_flag = y.pc_flag := enum h2
  obtain ⟨h3, h⟩ := attr h
  replace h3 : x.call_type = y.call_type := enum h3
  obtain ⟨h4, h⟩ := attr h
  replace h4 : x.vio_select = y.vio_select := bytes h4
  cases x; cases y
  dsimp only at h0 h1 h2 h3 h4
  subst h0 h1 h2 h3 h4
  rfl

theorem TelemetryProtocol.DataUnion.toPy_inj {x y : TelemetryProtocol.DataUnion} (h : x.toPy = y.toPy) : x = y := by
  cases x <;> cases y <;> first
    | exact absurd (object_class h) (by decide)
    | exact congrArg _ (TelemetryProtocol.StandardStatusRequest.toPy_inj h)
    | exact congrArg _ (TelemetryProtocol.RemoteControlAnswer.toPy_inj h)
    | exact congrArg _ (TelemetryProtocol.ExtendedStatusReport.toPy_inj h)
    | exact congrArg _ (TelemetryProtocol.RemoteControlRequest.toPy_inj h)
    | exact congrArg _ (TelemetryProtocol.StandardStatusReport.toPy_inj h)

theorem TelemetryProtocol.toPy_inj {x y : TelemetryProtocol} (h : x.toPy = y.toPy) : x = y := by
  have h := object_attrs h
  obtain ⟨h0, h⟩ := attr h
  replace h0 : x.service_type_opcode = y.service_type_opcode := enum h0
  obtain ⟨h1, h⟩ := attr h
  replace h1 : x.specific_service_opcode = y.specific_service_opcode := nat h1
  obtain ⟨h2, h⟩ := attr h
  replace h2 : x.message_length = y.message_length := nat h2
  obtain ⟨h3, h⟩ := attr h
  replace h3 : x.m_specific_service = y.m_specific_service := enum h3
  obtain ⟨h4, h⟩ := opt h (by names) (by names)
  replace h4 : x.data = y.data := option TelemetryProtocol.DataUnion.toPy_inj h4
  cases x; cases y
  dsimp only at h0 h1 h2 h3 h4
  subst h0 h1 h2 h3 h4
  rfl

end Dmr.Hytera

namespace Dmr.Hytera

theorem TextMessageProtocol.toPy_inj {x y : TextMessageProtocol} (h : x.toPy = y.toPy) : x = y := by
  have h := object_attrs h
  obtain ⟨h0, h⟩ := attr h
  replace h0 : x.ack_flag = y.ack_flag := enum h0
  obtain ⟨h1, h⟩ := attr h
  replace h1 : x.option_flag = y.option_flag := enum h1
  obtain ⟨h2, h⟩ := attr h
  replace h2 : x.reserved = y.reserved := nat h2
  obtain ⟨h3, h⟩ := attr h
  replace h3 : x.service_type = y.service_type := enum h3
  obtain ⟨h4, h⟩ := attr h
  replace h4 : x.message_length = y.message_length := nat h4
  obtain ⟨h5, h⟩ := opt h (by names) (by names)
  replace h5 : x.option_field_len = y.option_field_len := option nat h5
  obtain ⟨h6, h⟩ := attr h
  replace h6 : x.request_id = y.request_id := nat h6
  obtain ⟨h7, h⟩ := attr h
  replace h7 : x.destination_ip = y.destination_ip := RadioIp.toPy_inj h7
  obtain ⟨h8, h⟩ := opt h (by names) (by names)
  replace h8 : x.source_ip = y.source_ip := option RadioIp.toPy_inj h8
  obtain ⟨h9, h⟩ := opt h (by names) (by names)
  replace h9 : x.result = y.result := option enum h9
  obtain ⟨h10, h⟩ := opt h (by names) (by names)
  obtain ⟨h11, h⟩ := opt h (by names) (by names)
  replace h11 : x.tmdata = y.tmdata := option str h11
  obtain ⟨h12, h⟩ := opt h (by names) (by names)
  replace h12 : x.option_field = y.option_field := option str h12
  cases x; cases y
  dsimp only at h0 h1 h2 h3 h4 h5 h6 h7 h8 h9 h11 h12
  subst h0 h1 h2 h3 h4 h5 h6 h7 h8 h9 h11 h12
  rfl

end Dmr.Hytera

namespace Dmr.Hytera

theorem HyteraDmrApplicationProtocol.UndefinedProtocol.toPy_inj {x y : HyteraDmrApplicationProtocol.UndefinedProtocol} (h : x.toPy = y.toPy) : x = y := by
  have h := object_attrs h
  obtain ⟨h0, h⟩ := attr h
  replace h0 : x.data = y.data := bytes h0
  cases x; cases y
  dsimp only at h0
  subst h0
  rfl

theorem HyteraDmrApplicationProtocol.DataUnion.toPy_inj {x y : HyteraDmrApplicationProtocol.DataUnion} (h : x.toPy = y.toPy) : x = y := by
  cases x <;> cases y <;> first
    | exact absurd (object_class h) (by decide)
    | exact congrArg _ (RadioRegistrationService.toPy_inj h)
    | exact congrArg _ (TelemetryProtocol.toPy_inj h)
    | exact congrArg _ (RadioControlProtocol.toPy_inj h)
    | exact congrArg _ (TextMessageProtocol.toPy_inj h)
    | exact congrArg _ (DataDeliveryStates.toPy_inj h)
    | exact congrArg _ (LocationProtocol.toPy_inj h)
    | exact congrArg _ (DataTransmitProtocol.toPy_inj h)

theorem HyteraDmrApplicationProtocol.toPy_inj {x y : HyteraDmrApplicationProtocol} (h : x.toPy = y.toPy) : x = y := by
  have h := object_attrs h
  obtain ⟨h0, h⟩ := attr h
  replace h0 : x.is_reliable_message = y.is_reliable_message := bool h0
  obtain ⟨h1, h⟩ := attr h
  replace h1 : x.message_header = y.message_header := enum h1
  obtain ⟨h2, h⟩ := opt h (by names) (by names)
  replace h2 : x.data = y.data := option HyteraDmrApplicationProtocol.DataUnion.toPy_inj h2
  obtain ⟨h3, h⟩ := attr h
  replace h3 : x.checksum = y.checksum := nat h3
  obtain ⟨h4, h⟩ := attr h
  replace h4 : x.message_footer = y.message_footer := bytes h4
  cases x; cases y
  dsimp only at h0 h1 h2 h3 h4
  subst h0 h1 h2 h3 h4
  rfl

end Dmr.Hytera

namespace Dmr.Hytera

theorem HyteraRadioNetworkProtocol.toPy_inj {x y : HyteraRadioNetworkProtocol} (h : x.toPy = y.toPy) : x = y := by
  have h := object_attrs h
  obtain ⟨h0, h⟩ := attr h
  replace h0 : x.header_identifier = y.header_identifier := bytes h0
  obtain ⟨h1, h⟩ := attr h
  replace h1 : x.version = y.version := nat h1
  obtain ⟨h2, h⟩ := attr h
  replace h2 : x.block = y.block := nat h2
  obtain ⟨h3, h⟩ := attr h
  replace h3 : x.opcode = y.opcode := enum h3
  obtain ⟨h4, h⟩ := attr h
  replace h4 : x.source_id = y.source_id := nat h4
  obtain ⟨h5, h⟩ := attr h
  replace h5 : x.destination_id = y.destination_id := nat h5
  obtain ⟨h6, h⟩ := attr h
  replace h6 : x.packet_number = y.packet_number := nat h6
  obtain ⟨h7, h⟩ := attr h
  replace h7 : x.hrnp_packet_length = y.hrnp_packet_length := nat h7
  obtain ⟨h8, h⟩ := attr h
  replace h8 : x.checksum = y.checksum := nat h8
  obtain ⟨h9, h⟩ := opt h (by names) (by names)
  replace h9 : x.data = y.data := option HyteraDmrApplicationProtocol.toPy_inj h9
  cases x; cases y
  dsimp only at h0 h1 h2 h3 h4 h5 h6 h7 h8 h9
  subst h0 h1 h2 h3 h4 h5 h6 h7 h8 h9
  rfl

end Dmr.Hytera

namespace Dmr.Hytera

theorem HyteraSimpleTransportReliabilityProtocol.Option.toPy_inj {x y : HyteraSimpleTransportReliabilityProtocol.Option} (h : x.toPy = y.toPy) : x = y := by
  have h := object_attrs h
  obtain ⟨h0, h⟩ := attr h
  replace h0 : x.expect_more_options = y.expect_more_options := bool h0
  obtain ⟨h1, h⟩ := attr h
  replace h1 : x.command = y.command := enum h1
  obtain ⟨h2, h⟩ := attr h
  replace h2 : x.len_option_payload = y.len_option_payload := nat h2
  obtain ⟨h3, h⟩ := attr h
  replace h3 : x.option_payload = y.option_payload := bytes h3
  cases x; cases y
  dsimp only at h0 h1 h2 h3
  subst h0 h1 h2 h3
  rfl

theorem HyteraSimpleTransportReliabilityProtocol.toPy_inj {x y : HyteraSimpleTransportReliabilityProtocol} (h : x.toPy = y.toPy) : x = y := by
  have h := object_attrs h
  obtain ⟨h0, h⟩ := attr h
  replace h0 : x.header = y.header := bytes h0
  obtain ⟨h1, h⟩ := attr h
  replace h1 : x.version = y.version := nat h1
  obtain ⟨h2, h⟩ := attr h
  replace h2 : x.reserved = y.reserved := nat h2
  obtain ⟨h3, h⟩ := attr h
  replace h3 : x.has_option = y.has_option := bool h3
  obtain ⟨h4, h⟩ := attr h
  replace h4 : x.is_reject = y.is_reject := bool h4
  obtain ⟨h5, h⟩ := attr h
  replace h5 : x.is_close = y.is_close := bool h5
  obtain ⟨h6, h⟩ := attr h
  replace h6 : x.is_connect = y.is_connect := bool h6
  obtain ⟨h7, h⟩ := attr h
  replace h7 : x.is_heartbeat = y.is_heartbeat := bool h7
  obtain ⟨h8, h⟩ := attr h
  replace h8 : x.is_ack = y.is_ack := bool h8
  obtain ⟨h9, h⟩ := attr h
  replace h9 : x.sequence_number = y.sequence_number := nat h9
  obtain ⟨h10, h⟩ := opt h (by names) (by names)
  replace h10 : x.options = y.options := option (list HyteraSimpleTransportReliabilityProtocol.Option.toPy_inj) h10
  obtain ⟨h11, h⟩ := opt h (by names) (by names)
  replace h11 : x.data = y.data := option (list HyteraDmrApplicationProtocol.toPy_inj) h11
  obtain ⟨h12, h⟩ := opt h (by names) (by names)
  replace h12 : x.extra_data = y.extra_data := option bytes h12
  cases x; cases y
  dsimp only at h0 h1 h2 h3 h4 h5 h6 h7 h8 h9 h10 h11 h12
  subst h0 h1 h2 h3 h4 h5 h6 h7 h8 h9 h10 h11 h12
  rfl

end Dmr.Hytera

namespace Dmr.Hytera

theorem IpSiteConnectHeartbeat.Keepalive.toPy_inj {x y : IpSiteConnectHeartbeat.Keepalive} (h : x.toPy = y.toPy) : x = y := by
  have h := object_attrs h
  obtain ⟨h0, h⟩ := attr h
  replace h0 : x.nullbyte = y.nullbyte := bytes h0
  cases x; cases y
  dsimp only at h0
  subst h0
  rfl

theorem IpSiteConnectHeartbeat.PingPong.toPy_inj {x y : IpSiteConnectHeartbeat.PingPong} (h : x.toPy = y.toPy) : x = y := by
  have h := object_attrs h
  obtain ⟨h0, h⟩ := attr h
  replace h0 : x.header = y.header := bytes h0
  obtain ⟨h1, h⟩ := attr h
  replace h1 : x.heartbeat_identitier = y.heartbeat_identitier := bytes h1
  obtain ⟨h2, h⟩ := attr h
  replace h2 : x.nullbytes = y.nullbytes := bytes h2
  obtain ⟨h3, h⟩ := attr h
  replace h3 : x.heartbeat_seq = y.heartbeat_seq := nat h3
  obtain ⟨h4, h⟩ := attr h
  replace h4 : x.tail = y.tail := bytes h4
  cases x; cases y
  dsimp only at h0 h1 h2 h3 h4
  subst h0 h1 h2 h3 h4
  rfl

theorem IpSiteConnectHeartbeat.Unknown.toPy_inj {x y : IpSiteConnectHeartbeat.Unknown} (h : x.toPy = y.toPy) : x = y := by
  have h := object_attrs h
  obtain ⟨h0, h⟩ := attr h
  replace h0 : x.data = y.data := bytes h0
  cases x; cases y
  dsimp only at h0
  subst h0
  rfl

theorem IpSiteConnectHeartbeat.DataUnion.toPy_inj {x y : IpSiteConnectHeartbeat.DataUnion} (h : x.toPy = y.toPy) : x = y := by
  cases x <;> cases y <;> first
    | exact absurd (object_class h) (by decide)
    | exact congrArg _ (IpSiteConnectHeartbeat.Keepalive.toPy_inj h)
    | exact congrArg _ (IpSiteConnectHeartbeat.PingPong.toPy_inj h)
    | exact congrArg _ (IpSiteConnectHeartbeat.Unknown.toPy_inj h)

theorem IpSiteConnectHeartbeat.toPy_inj {x y : IpSiteConnectHeartbeat} (h : x.toPy = y.toPy) : x = y := by
  have h := object_attrs h
  obtain ⟨h0, h⟩ := attr h
  replace h0 : x.data = y.data := IpSiteConnectHeartbeat.DataUnion.toPy_inj h0
  cases x; cases y
  dsimp only at h0
  subst h0
  rfl

end Dmr.Hytera

namespace Dmr.Hytera

theorem IpSiteConnectProtocol.toPy_inj {x y : IpSiteConnectProtocol} (h : x.toPy = y.toPy) : x = y := by
  have h := object_attrs h
  obtain ⟨h0, h⟩ := attr h
  replace h0 : x.source_port = y.source_port := bytes h0
  obtain ⟨h1, h⟩ := attr h
  replace h1 : x.fixed_header = y.fixed_header := bytes h1
  obtain ⟨h2, h⟩ := attr h
  replace h2 : x.sequence_number = y.sequence_number := nat h2
  obtain ⟨h3, h⟩ := attr h
  replace h3 : x.reserved_3 = y.reserved_3 := bytes h3
  obtain ⟨h4, h⟩ := attr h
  replace h4 : x.packet_type = y.packet_type := enum h4
  obtain ⟨h5, h⟩ := attr h
  replace h5 : x.reserved_7a = y.reserved_7a := bytes h5
  obtain ⟨h6, h⟩ := attr h
  replace h6 : x.timeslot_raw = y.timeslot_raw := enum h6
  obtain ⟨h7, h⟩ := attr h
  replace h7 : x.slot_type = y.slot_type := enum h7
  obtain ⟨h8, h⟩ := attr h
  replace h8 : x.color_code_raw = y.color_code_raw := nat h8
  obtain ⟨h9, h⟩ := attr h
  replace h9 : x.frame_type = y.frame_type := enum h9
  obtain ⟨h10, h⟩ := attr h
  replace h10 : x.reserved_2a = y.reserved_2a := bytes h10
  obtain ⟨h11, h⟩ := attr h
  replace h11 : x.ipsc_payload = y.ipsc_payload := bytes h11
  obtain ⟨h12, h⟩ := attr h
  replace h12 : x.reserved_2b = y.reserved_2b := bytes h12
  obtain ⟨h13, h⟩ := attr h
  replace h13 : x.call_type = y.call_type := enum h13
  obtain ⟨h14, h⟩ := attr h
  replace h14 : x.destination_radio_id_raw = y.destination_radio_id_raw := nat h14
  obtain ⟨h15, h⟩ := attr h
  replace h15 : x.source_radio_id_raw = y.source_radio_id_raw := nat h15
  obtain ⟨h16, h⟩ := attr h
  replace h16 : x.reserved_1b = y.reserved_1b := nat h16
  obtain ⟨h17, h⟩ := opt h (by names) (by names)
  replace h17 : x.extra_data = y.extra_data := option bytes h17
  cases x; cases y
  dsimp only at h0 h1 h2 h3 h4 h5 h6 h7 h8 h9 h10 h11 h12 h13 h14 h15 h16 h17
  subst h0 h1 h2 h3 h4 h5 h6 h7 h8 h9 h10 h11 h12 h13 h14 h15 h16 h17
  rfl

end Dmr.Hytera

namespace Dmr.Hytera

theorem RealTimeTransportProtocol.FixedHeader.toPy_inj {x y : RealTimeTransportProtocol.FixedHeader} (h : x.toPy = y.toPy) : x = y := by
  have h := object_attrs h
  obtain ⟨h0, h⟩ := attr h
  replace h0 : x.version = y.version := nat h0
  obtain ⟨h1, h⟩ := attr h
  replace h1 : x.padding = y.padding := bool h1
  obtain ⟨h2, h⟩ := attr h
  replace h2 : x.extension = y.extension := bool h2
  obtain ⟨h3, h⟩ := attr h
  replace h3 : x.num_csrc = y.num_csrc := nat h3
  obtain ⟨h4, h⟩ := attr h
  replace h4 : x.marker = y.marker := bool h4
  obtain ⟨h5, h⟩ := attr h
  replace h5 : x.payload_type = y.payload_type := nat h5
  obtain ⟨h6, h⟩ := attr h
  replace h6 : x.sequence_number = y.sequence_number := nat h6
  obtain ⟨h7, h⟩ := attr h
  replace h7 : x.timestamp = y.timestamp := nat h7
  obtain ⟨h8, h⟩ := attr h
  replace h8 : x.ssrc = y.ssrc := nat h8
  obtain ⟨h9, h⟩ := attr h
  replace h9 : x.csrc = y.csrc := list nat h9
  cases x; cases y
  dsimp only at h0 h1 h2 h3 h4 h5 h6 h7 h8 h9
  subst h0 h1 h2 h3 h4 h5 h6 h7 h8 h9
  rfl

theorem RealTimeTransportProtocol.HeaderExtension.toPy_inj {x y : RealTimeTransportProtocol.HeaderExtension} (h : x.toPy = y.toPy) : x = y := by
  have h := object_attrs h
  obtain ⟨h0, h⟩ := attr h
  replace h0 : x.header_identifier = y.header_identifier := nat h0
  obtain ⟨h1, h⟩ := attr h
  replace h1 : x.length = y.length := nat h1
  obtain ⟨h2, h⟩ := attr h
  replace h2 : x.slot = y.slot := nat h2
  obtain ⟨h3, h⟩ := attr h
  replace h3 : x.last_flag = y.last_flag := bool h3
  obtain ⟨h4, h⟩ := attr h
  replace h4 : x.source_id = y.source_id := RadioId.toPy_inj h4
  obtain ⟨h5, h⟩ := attr h
  replace h5 : x.destination_id = y.destination_id := RadioId.toPy_inj h5
  obtain ⟨h6, h⟩ := attr h
  replace h6 : x.call_type = y.call_type := enum h6
  obtain ⟨h7, h⟩ := attr h
  replace h7 : x.reserved = y.reserved := bytes h7
  cases x; cases y
  dsimp only at h0 h1 h2 h3 h4 h5 h6 h7
  subst h0 h1 h2 h3 h4 h5 h6 h7
  rfl

theorem RealTimeTransportProtocol.toPy_inj {x y : RealTimeTransportProtocol} (h : x.toPy = y.toPy) : x = y := by
  have h := object_attrs h
  obtain ⟨h0, h⟩ := attr h
  replace h0 : x.fixed_header = y.fixed_header := RealTimeTransportProtocol.FixedHeader.toPy_inj h0
  obtain ⟨h1, h⟩ := opt h (by names) (by names)
  replace h1 : x.header_extension = y.header_extension := option RealTimeTransportProtocol.HeaderExtension.toPy_inj h1
  obtain ⟨h2, h⟩ := opt h (by names) (by names)
  obtain ⟨h3, h⟩ := attr h
  replace h3 : x.m_len_padding = y.m_len_padding := nat h3
  obtain ⟨h4, h⟩ := attr h
  replace h4 : x.audio_data = y.audio_data := bytes h4
  obtain ⟨h5, h⟩ := opt h (by names) (by names)
  replace h5 : x.padding = y.padding := option bytes h5
  cases x; cases y
  dsimp only at h0 h1 h3 h4 h5
  subst h0 h1 h3 h4 h5
  rfl

end Dmr.Hytera

namespace Dmr.Etsi

theorem DmrCsbk.NegativeAckResponseData.toPy_inj {x y : DmrCsbk.NegativeAckResponseData} (h : x.toPy = y.toPy) : x = y := by
  have h := object_attrs h
  obtain ⟨h0, h⟩ := attr h
  replace h0 : x.additional_information_field = y.additional_information_field := bool h0
  obtain ⟨h1, h⟩ := attr h
  replace h1 : x.source_type = y.source_type := bool h1
  obtain ⟨h2, h⟩ := attr h
  replace h2 : x.service_type = y.service_type := nat h2
  obtain ⟨h3, h⟩ := attr h
  replace h3 : x.reason_code = y.reason_code := nat h3
  obtain ⟨h4, h⟩ := attr h
  replace h4 : x.source_address = y.source_address := nat h4
  obtain ⟨h5, h⟩ := attr h
  replace h5 : x.target_address = y.target_address := nat h5
  cases x; cases y
  dsimp only at h0 h1 h2 h3 h4 h5
  subst h0 h1 h2 h3 h4 h5
  rfl

theorem DmrCsbk.ServiceOptions.toPy_inj {x y : DmrCsbk.ServiceOptions} (h : x.toPy = y.toPy) : x = y := by
  have h := object_attrs h
  obtain ⟨h0, h⟩ := attr h
  replace h0 : x.is_emergency_service = y.is_emergency_service := bool h0
  obtain ⟨h1, h⟩ := attr h
  replace h1 : x.privacy = y.privacy := bool h1
  obtain ⟨h2, h⟩ := attr h
  replace h2 : x.reserved = y.reserved := nat h2
  obtain ⟨h3, h⟩ := attr h
  replace h3 : x.is_broadcast_service = y.is_broadcast_service := bool h3
  obtain ⟨h4, h⟩ := attr h
  replace h4 : x.is_open_voice_call_mode = y.is_open_voice_call_mode := bool h4
  obtain ⟨h5, h⟩ := attr h
  replace h5 : x.priority_level = y.priority_level := nat h5
  cases x; cases y
  dsimp only at h0 h1 h2 h3 h4 h5
  subst h0 h1 h2 h3 h4 h5
  rfl

theorem DmrCsbk.UnitToUnitVoiceRequestData.toPy_inj {x y : DmrCsbk.UnitToUnitVoiceRequestData} (h : x.toPy = y.toPy) : x = y := by
  have h := object_attrs h
  obtain ⟨h0, h⟩ := attr h
  replace h0 : x.service_options = y.service_options := DmrCsbk.ServiceOptions.toPy_inj h0
  obtain ⟨h1, h⟩ := attr h
  replace h1 : x.reserved = y.reserved := nat h1
  obtain ⟨h2, h⟩ := attr h
  replace h2 : x.target_address = y.target_address := nat h2
  obtain ⟨h3, h⟩ := attr h
  replace h3 : x.source_address = y.source_address := nat h3
  cases x; cases y
  dsimp only at h0 h1 h2 h3
  subst h0 h1 h2 h3
  rfl

theorem DmrCsbk.PreambleData.toPy_inj {x y : DmrCsbk.PreambleData} (h : x.toPy = y.toPy) : x = y := by
  have h := object_attrs h
  obtain ⟨h0, h⟩ := attr h
  replace h0 : x.preamble_data_or_csbk = y.preamble_data_or_csbk := enum h0
  obtain ⟨h1, h⟩ := attr h
  replace h1 : x.group_or_individual = y.group_or_individual := enum h1
  obtain ⟨h2, h⟩ := attr h
  replace h2 : x.preamble_reserved = y.preamble_reserved := nat h2
  obtain ⟨h3, h⟩ := attr h
  replace h3 : x.preamble_csbk_blocks_to_follow = y.preamble_csbk_blocks_to_follow := nat h3
  obtain ⟨h4, h⟩ := attr h
  replace h4 : x.target_address = y.target_address := nat h4
  obtain ⟨h5, h⟩ := attr h
  replace h5 : x.source_address = y.source_address := nat h5
  cases x; cases y
  dsimp only at h0 h1 h2 h3 h4 h5
  subst h0 h1 h2 h3 h4 h5
  rfl

theorem DmrCsbk.ChannelTimingData.toPy_inj {x y : DmrCsbk.ChannelTimingData} (h : x.toPy = y.toPy) : x = y := by
  have h := object_attrs h
  obtain ⟨h0, h⟩ := attr h
  replace h0 : x.sync_age = y.sync_age := nat h0
  obtain ⟨h1, h⟩ := attr h
  replace h1 : x.generation = y.generation := nat h1
  obtain ⟨h2, h⟩ := attr h
  replace h2 : x.leader_identifier = y.leader_identifier := nat h2
  obtain ⟨h3, h⟩ := attr h
  replace h3 : x.new_leader = y.new_leader := bool h3
  obtain ⟨h4, h⟩ := attr h
  replace h4 : x.leader_dynamic_identifier = y.leader_dynamic_identifier := nat h4
  obtain ⟨h5, h⟩ := attr h
  replace h5 : x.channel_timing_op1 = y.channel_timing_op1 := bool h5
  obtain ⟨h6, h⟩ := attr h
  replace h6 : x.source_identifier = y.source_identifier := nat h6
  obtain ⟨h7, h⟩ := attr h
  replace h7 : x.reserved = y.reserved := bool h7
  obtain ⟨h8, h⟩ := attr h
  replace h8 : x.source_dynamic_identifier = y.source_dynamic_identifier := nat h8
  obtain ⟨h9, h⟩ := attr h
  replace h9 : x.channel_timing_op0 = y.channel_timing_op0 := bool h9
  cases x; cases y
  dsimp only at h0 h1 h2 h3 h4 h5 h6 h7 h8 h9
  subst h0 h1 h2 h3 h4 h5 h6 h7 h8 h9
  rfl

theorem DmrCsbk.BsOutboundActivationData.toPy_inj {x y : DmrCsbk.BsOutboundActivationData} (h : x.toPy = y.toPy) : x = y := by
  have h := object_attrs h
  obtain ⟨h0, h⟩ := attr h
  replace h0 : x.reserved = y.reserved := nat h0
  obtain ⟨h1, h⟩ := attr h
  replace h1 : x.bs_address = y.bs_address := nat h1
  obtain ⟨h2, h⟩ := attr h
  replace h2 : x.source_address = y.source_address := nat h2
  cases x; cases y
  dsimp only at h0 h1 h2
  subst h0 h1 h2
  rfl

theorem DmrCsbk.UnitToUnitVoiceAnswerData.toPy_inj {x y : DmrCsbk.UnitToUnitVoiceAnswerData} (h : x.toPy = y.toPy) : x = y := by
  have h := object_attrs h
  obtain ⟨h0, h⟩ := attr h
  replace h0 : x.service_options = y.service_options := DmrCsbk.ServiceOptions.toPy_inj h0
  obtain ⟨h1, h⟩ := attr h
  replace h1 : x.answer_response = y.answer_response := enum h1
  obtain ⟨h2, h⟩ := attr h
  replace h2 : x.target_address = y.target_address := nat h2
  obtain ⟨h3, h⟩ := attr h
  replace h3 : x.source_address = y.source_address := nat h3
  cases x; cases y
  dsimp only at h0 h1 h2 h3
  subst h0 h1 h2 h3
  rfl

theorem DmrCsbk.CsbkDataUnion.toPy_inj {x y : DmrCsbk.CsbkDataUnion} (h : x.toPy = y.toPy) : x = y := by
  cases x <;> cases y <;> first
    | exact absurd (object_class h) (by decide)
    | exact congrArg _ (DmrCsbk.UnitToUnitVoiceAnswerData.toPy_inj h)
    | exact congrArg _ (DmrCsbk.PreambleData.toPy_inj h)
    | exact congrArg _ (DmrCsbk.ChannelTimingData.toPy_inj h)
    | exact congrArg _ (DmrCsbk.UnitToUnitVoiceRequestData.toPy_inj h)
    | exact congrArg _ (DmrCsbk.BsOutboundActivationData.toPy_inj h)
    | exact congrArg _ (DmrCsbk.NegativeAckResponseData.toPy_inj h)

theorem DmrCsbk.toPy_inj {x y : DmrCsbk} (h : x.toPy = y.toPy) : x = y := by
  have h := object_attrs h
  obtain ⟨h0, h⟩ := attr h
  replace h0 : x.last_block = y.last_block := bool h0
  obtain ⟨h1, h⟩ := attr h
  replace h1 : x.protect_flag = y.protect_flag := bool h1
  obtain ⟨h2, h⟩ := attr h
  replace h2 : x.csbk_opcode = y.csbk_opcode := enum h2
  obtain ⟨h3, h⟩ := attr h
  replace h3 : x.feature_set_id = y.feature_set_id := nat h3
  obtain ⟨h4, h⟩ := opt h (by names) (by names)
  replace h4 : x.csbk_data = y.csbk_data := option DmrCsbk.CsbkDataUnion.toPy_inj h4
  cases x; cases y
  dsimp only at h0 h1 h2 h3 h4
  subst h0 h1 h2 h3 h4
  rfl

end Dmr.Etsi

namespace Dmr.Etsi

theorem DmrData.Rate1LastBlockUnconfirmed.toPy_inj {x y : DmrData.Rate1LastBlockUnconfirmed} (h : x.toPy = y.toPy) : x = y := by
  have h := object_attrs h
  obtain ⟨h0, h⟩ := attr h
  replace h0 : x.user_data = y.user_data := bytes h0
  obtain ⟨h1, h⟩ := attr h
  replace h1 : x.message_crc32 = y.message_crc32 := bytes h1
  cases x; cases y
  dsimp only at h0 h1
  subst h0 h1
  rfl

theorem DmrData.Rate12LastBlockConfirmed.toPy_inj {x y : DmrData.Rate12LastBlockConfirmed} (h : x.toPy = y.toPy) : x = y := by
  have h := object_attrs h
  obtain ⟨h0, h⟩ := attr h
  replace h0 : x.data_block_serial_number = y.data_block_serial_number := nat h0
  obtain ⟨h1, h⟩ := attr h
  replace h1 : x.crc9 = y.crc9 := nat h1
  obtain ⟨h2, h⟩ := attr h
  replace h2 : x.user_data = y.user_data := bytes h2
  obtain ⟨h3, h⟩ := attr h
  replace h3 : x.message_crc32 = y.message_crc32 := bytes h3
  cases x; cases y
  dsimp only at h0 h1 h2 h3
  subst h0 h1 h2 h3
  rfl

theorem DmrData.Rate12Confirmed.toPy_inj {x y : DmrData.Rate12Confirmed} (h : x.toPy = y.toPy) : x = y := by
  have h := object_attrs h
  obtain ⟨h0, h⟩ := attr h
  replace h0 : x.data_block_serial_number = y.data_block_serial_number := nat h0
  obtain ⟨h1, h⟩ := attr h
  replace h1 : x.crc9 = y.crc9 := nat h1
  obtain ⟨h2, h⟩ := attr h
  replace h2 : x.user_data = y.user_data := bytes h2
  cases x; cases y
  dsimp only at h0 h1 h2
  subst h0 h1 h2
  rfl

theorem DmrData.Rate34LastBlockUnconfirmed.toPy_inj {x y : DmrData.Rate34LastBlockUnconfirmed} (h : x.toPy = y.toPy) : x = y := by
  have h := object_attrs h
  obtain ⟨h0, h⟩ := attr h
  replace h0 : x.user_data = y.user_data := bytes h0
  obtain ⟨h1, h⟩ := attr h
  replace h1 : x.message_crc32 = y.message_crc32 := bytes h1
  cases x; cases y
  dsimp only at h0 h1
  subst h0 h1
  rfl

theorem DmrData.Rate1LastBlockConfirmed.toPy_inj {x y : DmrData.Rate1LastBlockConfirmed} (h : x.toPy = y.toPy) : x = y := by
  have h := object_attrs h
  obtain ⟨h0, h⟩ := attr h
  replace h0 : x.data_block_serial_number = y.data_block_serial_number := nat h0
  obtain ⟨h1, h⟩ := attr h
  replace h1 : x.crc9 = y.crc9 := nat h1
  obtain ⟨h2, h⟩ := attr h
  replace h2 : x.user_data = y.user_data := bytes h2
  obtain ⟨h3, h⟩ := attr h
  replace h3 : x.message_crc32 = y.message_crc32 := bytes h3
  cases x; cases y
  dsimp only at h0 h1 h2 h3
  subst h0 h1 h2 h3
  rfl

theorem DmrData.Rate1Unconfirmed.toPy_inj {x y : DmrData.Rate1Unconfirmed} (h : x.toPy = y.toPy) : x = y := by
  have h := object_attrs h
  obtain ⟨h0, h⟩ := attr h
  replace h0 : x.user_data = y.user_data := bytes h0
  cases x; cases y
  dsimp only at h0
  subst h0
  rfl

theorem DmrData.UdtLastBlock.toPy_inj {x y : DmrData.UdtLastBlock} (h : x.toPy = y.toPy) : x = y := by
  have h := object_attrs h
  obtain ⟨h0, h⟩ := attr h
  replace h0 : x.user_data = y.user_data := bytes h0
  obtain ⟨h1, h⟩ := attr h
  replace h1 : x.message_crc16 = y.message_crc16 := bytes h1
  cases x; cases y
  dsimp only at h0 h1
  subst h0 h1
  rfl

theorem DmrData.Rate34Confirmed.toPy_inj {x y : DmrData.Rate34Confirmed} (h : x.toPy = y.toPy) : x = y := by
  have h := object_attrs h
  obtain ⟨h0, h⟩ := attr h
  replace h0 : x.data_block_serial_number = y.data_block_serial_number := nat h0
  obtain ⟨h1, h⟩ := attr h
  replace h1 : x.crc9 = y.crc9 := nat h1
  obtain ⟨h2, h⟩ := attr h
  replace h2 : x.user_data = y.user_data := bytes h2
  cases x; cases y
  dsimp only at h0 h1 h2
  subst h0 h1 h2
  rfl

theorem DmrData.Rate34LastBlockConfirmed.toPy_inj {x y : DmrData.Rate34LastBlockConfirmed} (h : x.toPy = y.toPy) : x = y := by
  have h := object_attrs h
  obtain ⟨h0, h⟩ := attr h
  replace h0 : x.data_block_serial_number = y.data_block_serial_number := nat h0
  obtain ⟨h1, h⟩ := attr h
  replace h1 : x.crc9 = y.crc9 := nat h1
  obtain ⟨h2, h⟩ := attr h
  replace h2 : x.user_data = y.user_data := bytes h2
  obtain ⟨h3, h⟩ := attr h
  replace h3 : x.message_crc32 = y.message_crc32 := bytes h3
  cases x; cases y
  dsimp only at h0 h1 h2 h3
  subst h0 h1 h2 h3
  rfl

theorem DmrData.Rate34Unconfirmed.toPy_inj {x y : DmrData.Rate34Unconfirmed} (h : x.toPy = y.toPy) : x = y := by
  have h := object_attrs h
  obtain ⟨h0, h⟩ := attr h
  replace h0 : x.user_data = y.user_data := bytes h0
  cases x; cases y
  dsimp only at h0
  subst h0
  rfl

theorem DmrData.Rate12LastBlockUnconfirmed.toPy_inj {x y : DmrData.Rate12LastBlockUnconfirmed} (h : x.toPy = y.toPy) : x = y := by
  have h := object_attrs h
  obtain ⟨h0, h⟩ := attr h
  replace h0 : x.user_data = y.user_data := bytes h0
  obtain ⟨h1, h⟩ := attr h
  replace h1 : x.message_crc32 = y.message_crc32 := bytes h1
  cases x; cases y
  dsimp only at h0 h1
  subst h0 h1
  rfl

theorem DmrData.Rate1Confirmed.toPy_inj {x y : DmrData.Rate1Confirmed} (h : x.toPy = y.toPy) : x = y := by
  have h := object_attrs h
  obtain ⟨h0, h⟩ := attr h
  replace h0 : x.data_block_serial_number = y.data_block_serial_number := nat h0
  obtain ⟨h1, h⟩ := attr h
  replace h1 : x.crc9 = y.crc9 := nat h1
  obtain ⟨h2, h⟩ := attr h
  replace h2 : x.user_data = y.user_data := bytes h2
  cases x; cases y
  dsimp only at h0 h1 h2
  subst h0 h1 h2
  rfl

theorem DmrData.Rate12Unconfirmed.toPy_inj {x y : DmrData.Rate12Unconfirmed} (h : x.toPy = y.toPy) : x = y := by
  have h := object_attrs h
  obtain ⟨h0, h⟩ := attr h
  replace h0 : x.user_data = y.user_data := bytes h0
  cases x; cases y
  dsimp only at h0
  subst h0
  rfl

theorem DmrData.toPy_inj {x y : DmrData} (h : x.toPy = y.toPy) : x = y := by
  cases x; cases y; rfl

end Dmr.Etsi

namespace Dmr.Etsi

theorem DmrDataHeader.DataHeaderShortRaw.toPy_inj {x y : DmrDataHeader.DataHeaderShortRaw} (h : x.toPy = y.toPy) : x = y := by
  have h := object_attrs h
  obtain ⟨h0, h⟩ := attr h
  replace h0 : x.llid_destination_is_group = y.llid_destination_is_group := bool h0
  obtain ⟨h1, h⟩ := attr h
  replace h1 : x.response_requested = y.response_requested := bool h1
  obtain ⟨h2, h⟩ := attr h
  replace h2 : x.appended_blocks_msb = y.appended_blocks_msb := nat h2
  obtain ⟨h3, h⟩ := attr h
  replace h3 : x.format = y.format := enum h3
  obtain ⟨h4, h⟩ := attr h
  replace h4 : x.sap_identifier = y.sap_identifier := enum h4
  obtain ⟨h5, h⟩ := attr h
  replace h5 : x.appended_blocks_lsb = y.appended_blocks_lsb := nat h5
  obtain ⟨h6, h⟩ := attr h
  replace h6 : x.llid_destination = y.llid_destination := nat h6
  obtain ⟨h7, h⟩ := attr h
  replace h7 : x.llid_source = y.llid_source := nat h7
  obtain ⟨h8, h⟩ := attr h
  replace h8 : x.source_port = y.source_port := nat h8
  obtain ⟨h9, h⟩ := attr h
  replace h9 : x.destination_port = y.destination_port := nat h9
  obtain ⟨h10, h⟩ := attr h
  replace h10 : x.selective_automatic_repeat_request = y.selective_automatic_repeat_request := bool h10
  obtain ⟨h11, h⟩ := attr h
  replace h11 : x.full_message_flag = y.full_message_flag := bool h11
  obtain ⟨h12, h⟩ := attr h
  replace h12 : x.bit_padding = y.bit_padding := nat h12
  obtain ⟨h13, h⟩ := attr h
  replace h13 : x.crc = y.crc := bytes h13
  cases x; cases y
  dsimp only at h0 h1 h2 h3 h4 h5 h6 h7 h8 h9 h10 h11 h12 h13
  subst h0 h1 h2 h3 h4 h5 h6 h7 h8 h9 h10 h11 h12 h13
  rfl

theorem DmrDataHeader.DataHeaderProprietary.toPy_inj {x y : DmrDataHeader.DataHeaderProprietary} (h : x.toPy = y.toPy) : x = y := by
  have h := object_attrs h
  obtain ⟨h0, h⟩ := attr h
  replace h0 : x.sap_identifier = y.sap_identifier := enum h0
  obtain ⟨h1, h⟩ := attr h
  replace h1 : x.format = y.format := enum h1
  obtain ⟨h2, h⟩ := attr h
  replace h2 : x.mfid = y.mfid := nat h2
  obtain ⟨h3, h⟩ := attr h
  replace h3 : x.proprietary_data = y.proprietary_data := bytes h3
  obtain ⟨h4, h⟩ := attr h
  replace h4 : x.crc = y.crc := bytes h4
  cases x; cases y
  dsimp only at h0 h1 h2 h3 h4
  subst h0 h1 h2 h3 h4
  rfl

theorem DmrDataHeader.DataHeaderUndefined.toPy_inj {x y : DmrDataHeader.DataHeaderUndefined} (h : x.toPy = y.toPy) : x = y := by
  have h := object_attrs h
  obtain ⟨h0, h⟩ := attr h
  replace h0 : x.bytedata = y.bytedata := bytes h0
  cases x; cases y
  dsimp only at h0
  subst h0
  rfl

theorem DmrDataHeader.DataHeaderShortStatusPrecoded.toPy_inj {x y : DmrDataHeader.DataHeaderShortStatusPrecoded} (h : x.toPy = y.toPy) : x = y := by
  have h := object_attrs h
  obtain ⟨h0, h⟩ := attr h
  replace h0 : x.llid_destination_is_group = y.llid_destination_is_group := bool h0
  obtain ⟨h1, h⟩ := attr h
  replace h1 : x.response_requested = y.response_requested := bool h1
  obtain ⟨h2, h⟩ := attr h
  replace h2 : x.appended_blocks_msb = y.appended_blocks_msb := nat h2
  obtain ⟨h3, h⟩ := attr h
  replace h3 : x.format = y.format := enum h3
  obtain ⟨h4, h⟩ := attr h
  replace h4 : x.sap_identifier = y.sap_identifier := enum h4
  obtain ⟨h5, h⟩ := attr h
  replace h5 : x.appended_blocks_lsb = y.appended_blocks_lsb := nat h5
  obtain ⟨h6, h⟩ := attr h
  replace h6 : x.llid_destination = y.llid_destination := nat h6
  obtain ⟨h7, h⟩ := attr h
  replace h7 : x.llid_source = y.llid_source := nat h7
  obtain ⟨h8, h⟩ := attr h
  replace h8 : x.source_port = y.source_port := nat h8
  obtain ⟨h9, h⟩ := attr h
  replace h9 : x.destination_port = y.destination_port := nat h9
  obtain ⟨h10, h⟩ := attr h
  replace h10 : x.status_precoded = y.status_precoded := nat h10
  obtain ⟨h11, h⟩ := attr h
  replace h11 : x.crc = y.crc := bytes h11
  cases x; cases y
  dsimp only at h0 h1 h2 h3 h4 h5 h6 h7 h8 h9 h10 h11
  subst h0 h1 h2 h3 h4 h5 h6 h7 h8 h9 h10 h11
  rfl

theorem DmrDataHeader.DataHeaderResponse.toPy_inj {x y : DmrDataHeader.DataHeaderResponse} (h : x.toPy = y.toPy) : x = y := by
  have h := object_attrs h
  obtain ⟨h0, h⟩ := attr h
  replace h0 : x.reserved1 = y.reserved1 := bool h0
  obtain ⟨h1, h⟩ := attr h
  replace h1 : x.response_requested = y.response_requested := bool h1
  obtain ⟨h2, h⟩ := attr h
  replace h2 : x.reserved2 = y.reserved2 := nat h2
  obtain ⟨h3, h⟩ := attr h
  replace h3 : x.format = y.format := enum h3
  obtain ⟨h4, h⟩ := attr h
  replace h4 : x.sap_identifier = y.sap_identifier := enum h4
  obtain ⟨h5, h⟩ := attr h
  replace h5 : x.reserved3 = y.reserved3 := nat h5
  obtain ⟨h6, h⟩ := attr h
  replace h6 : x.llid_destination = y.llid_destination := nat h6
  obtain ⟨h7, h⟩ := attr h
  replace h7 : x.llid_source = y.llid_source := nat h7
  obtain ⟨h8, h⟩ := attr h
  replace h8 : x.full_message_flag = y.full_message_flag := bool h8
  obtain ⟨h9, h⟩ := attr h
  replace h9 : x.blocks_to_follow = y.blocks_to_follow := nat h9
  obtain ⟨h10, h⟩ := attr h
  replace h10 : x.response_class = y.response_class := enum h10
  obtain ⟨h11, h⟩ := attr h
  replace h11 : x.response_type = y.response_type := nat h11
  obtain ⟨h12, h⟩ := attr h
  replace h12 : x.response_status = y.response_status := nat h12
  obtain ⟨h13, h⟩ := attr h
  replace h13 : x.crc = y.crc := bytes h13
  cases x; cases y
  dsimp only at h0 h1 h2 h3 h4 h5 h6 h7 h8 h9 h10 h11 h12 h13
  subst h0 h1 h2 h3 h4 h5 h6 h7 h8 h9 h10 h11 h12 h13
  rfl

theorem DmrDataHeader.DataHeaderConfirmed.toPy_inj {x y : DmrDataHeader.DataHeaderConfirmed} (h : x.toPy = y.toPy) : x = y := by
  have h := object_attrs h
  obtain ⟨h0, h⟩ := attr h
  replace h0 : x.llid_destination_is_group = y.llid_destination_is_group := bool h0
  obtain ⟨h1, h⟩ := attr h
  replace h1 : x.response_requested = y.response_requested := bool h1
  obtain ⟨h2, h⟩ := attr h
  replace h2 : x.reserved1 = y.reserved1 := bool h2
  obtain ⟨h3, h⟩ := attr h
  replace h3 : x.pad_octet_count_msb = y.pad_octet_count_msb := bool h3
  obtain ⟨h4, h⟩ := attr h
  replace h4 : x.format = y.format := enum h4
  obtain ⟨h5, h⟩ := attr h
  replace h5 : x.sap_identifier = y.sap_identifier := enum h5
  obtain ⟨h6, h⟩ := attr h
  replace h6 : x.pad_octet_count = y.pad_octet_count := nat h6
  obtain ⟨h7, h⟩ := attr h
  replace h7 : x.llid_destination = y.llid_destination := nat h7
  obtain ⟨h8, h⟩ := attr h
  replace h8 : x.llid_source = y.llid_source := nat h8
  obtain ⟨h9, h⟩ := attr h
  replace h9 : x.full_message_flag = y.full_message_flag := bool h9
  obtain ⟨h10, h⟩ := attr h
  replace h10 : x.blocks_to_follow = y.blocks_to_follow := nat h10
  obtain ⟨h11, h⟩ := attr h
  replace h11 : x.resynchronize_flag = y.resynchronize_flag := bool h11
  obtain ⟨h12, h⟩ := attr h
  replace h12 : x.send_sequence_number = y.send_sequence_number := nat h12
  obtain ⟨h13, h⟩ := attr h
  replace h13 : x.fragment_sequence_number = y.fragment_sequence_number := nat h13
  obtain ⟨h14, h⟩ := attr h
  replace h14 : x.crc = y.crc := bytes h14
  cases x; cases y
  dsimp only at h0 h1 h2 h3 h4 h5 h6 h7 h8 h9 h10 h11 h12 h13 h14
  subst h0 h1 h2 h3 h4 h5 h6 h7 h8 h9 h10 h11 h12 h13 h14
  rfl

theorem DmrDataHeader.DataHeaderUnconfirmed.toPy_inj {x y : DmrDataHeader.DataHeaderUnconfirmed} (h : x.toPy = y.toPy) : x = y := by
  have h := object_attrs h
  obtain ⟨h0, h⟩ := attr h
  replace h0 : x.llid_destination_is_group = y.llid_destination_is_group := bool h0
  obtain ⟨h1, h⟩ := attr h
  replace h1 : x.response_requested = y.response_requested := bool h1
  obtain ⟨h2, h⟩ := attr h
  replace h2 : x.reserved1 = y.reserved1 := bool h2
  obtain ⟨h3, h⟩ := attr h
  replace h3 : x.pad_octet_count_msb = y.pad_octet_count_msb := bool h3
  obtain ⟨h4, h⟩ := attr h
  replace h4 : x.format = y.format := enum h4
  obtain ⟨h5, h⟩ := attr h
  replace h5 : x.sap_identifier = y.sap_identifier := enum h5
  obtain ⟨h6, h⟩ := attr h
  replace h6 : x.pad_octet_count = y.pad_octet_count := nat h6
  obtain ⟨h7, h⟩ := attr h
  replace h7 : x.llid_destination = y.llid_destination := nat h7
  obtain ⟨h8, h⟩ := attr h
  replace h8 : x.llid_source = y.llid_source := nat h8
  obtain ⟨h9, h⟩ := attr h
  replace h9 : x.full_message_flag = y.full_message_flag := bool h9
  obtain ⟨h10, h⟩ := attr h
  replace h10 : x.blocks_to_follow = y.blocks_to_follow := nat h10
  obtain ⟨h11, h⟩ := attr h
  replace h11 : x.reserved2 = y.reserved2 := nat h11
  obtain ⟨h12, h⟩ := attr h
  replace h12 : x.fragment_sequence_number = y.fragment_sequence_number := nat h12
  obtain ⟨h13, h⟩ := attr h
  replace h13 : x.crc = y.crc := bytes h13
  cases x; cases y
  dsimp only at h0 h1 h2 h3 h4 h5 h6 h7 h8 h9 h10 h11 h12 h13
  subst h0 h1 h2 h3 h4 h5 h6 h7 h8 h9 h10 h11 h12 h13
  rfl

theorem DmrDataHeader.DataHeaderShortDefined.toPy_inj {x y : DmrDataHeader.DataHeaderShortDefined} (h : x.toPy = y.toPy) : x = y := by
  have h := object_attrs h
  obtain ⟨h0, h⟩ := attr h
  replace h0 : x.llid_destination_is_group = y.llid_destination_is_group := bool h0
  obtain ⟨h1, h⟩ := attr h
  replace h1 : x.response_requested = y.response_requested := bool h1
  obtain ⟨h2, h⟩ := attr h
  replace h2 : x.appended_blocks_msb = y.appended_blocks_msb := nat h2
  obtain ⟨h3, h⟩ := attr h
  replace h3 : x.format = y.format := enum h3
  obtain ⟨h4, h⟩ := attr h
  replace h4 : x.sap_identifier = y.sap_identifier := enum h4
  obtain ⟨h5, h⟩ := attr h
  replace h5 : x.appended_blocks_lsb = y.appended_blocks_lsb := nat h5
  obtain ⟨h6, h⟩ := attr h
  replace h6 : x.llid_destination = y.llid_destination := nat h6
  obtain ⟨h7, h⟩ := attr h
  replace h7 : x.llid_source = y.llid_source := nat h7
  obtain ⟨h8, h⟩ := attr h
  replace h8 : x.defined_data = y.defined_data := enum h8
  obtain ⟨h9, h⟩ := attr h
  replace h9 : x.selective_automatic_repeat_request = y.selective_automatic_repeat_request := bool h9
  obtain ⟨h10, h⟩ := attr h
  replace h10 : x.full_message_flag = y.full_message_flag := bool h10
  obtain ⟨h11, h⟩ := attr h
  replace h11 : x.bit_padding = y.bit_padding := nat h11
  obtain ⟨h12, h⟩ := attr h
  replace h12 : x.crc = y.crc := bytes h12
  cases x; cases y
  dsimp only at h0 h1 h2 h3 h4 h5 h6 h7 h8 h9 h10 h11 h12
  subst h0 h1 h2 h3 h4 h5 h6 h7 h8 h9 h10 h11 h12
  rfl

theorem DmrDataHeader.DataHeaderUdt.toPy_inj {x y : DmrDataHeader.DataHeaderUdt} (h : x.toPy = y.toPy) : x = y := by
  have h := object_attrs h
  obtain ⟨h0, h⟩ := attr h
  replace h0 : x.llid_destination_is_group = y.llid_destination_is_group := bool h0
  obtain ⟨h1, h⟩ := attr h
  replace h1 : x.response_requested = y.response_requested := bool h1
  obtain ⟨h2, h⟩ := attr h
  replace h2 : x.reserved1 = y.reserved1 := nat h2
  obtain ⟨h3, h⟩ := attr h
  replace h3 : x.format = y.format := enum h3
  obtain ⟨h4, h⟩ := attr h
  replace h4 : x.sap_identifier = y.sap_identifier := enum h4
  obtain ⟨h5, h⟩ := attr h
  replace h5 : x.udt_format = y.udt_format := enum h5
  obtain ⟨h6, h⟩ := attr h
  replace h6 : x.llid_destination = y.llid_destination := nat h6
  obtain ⟨h7, h⟩ := attr h
  replace h7 : x.llid_source = y.llid_source := nat h7
  obtain ⟨h8, h⟩ := attr h
  replace h8 : x.pad_nibble = y.pad_nibble := nat h8
  obtain ⟨h9, h⟩ := attr h
  replace h9 : x.reserved2 = y.reserved2 := bool h9
  obtain ⟨h10, h⟩ := attr h
  replace h10 : x.appended_blocks = y.appended_blocks := nat h10
  obtain ⟨h11, h⟩ := attr h
  replace h11 : x.supplementary_flag = y.supplementary_flag := bool h11
  obtain ⟨h12, h⟩ := attr h
  replace h12 : x.protect_flag = y.protect_flag := bool h12
  obtain ⟨h13, h⟩ := attr h
  replace h13 : x.udt_opcode = y.udt_opcode := enum h13
  obtain ⟨h14, h⟩ := attr h
  replace h14 : x.crc = y.crc := bytes h14
  cases x; cases y
  dsimp only at h0 h1 h2 h3 h4 h5 h6 h7 h8 h9 h10 h11 h12 h13 h14
  subst h0 h1 h2 h3 h4 h5 h6 h7 h8 h9 h10 h11 h12 h13 h14
  rfl

theorem DmrDataHeader.toPy_inj {x y : DmrDataHeader} (h : x.toPy = y.toPy) : x = y := by
  have h := object_attrs h
  obtain ⟨h0, h⟩ := attr h
  replace h0 : x.skip4 = y.skip4 := nat h0
  obtain ⟨h1, h⟩ := attr h
  replace h1 : x.data_packet_format = y.data_packet_format := enum h1
  cases x; cases y
  dsimp only at h0 h1
  subst h0 h1
  rfl

theorem DmrDataHeader.DataUnion.toPy_inj {x y : DmrDataHeader.DataUnion} (h : x.toPy = y.toPy) : x = y := by
  cases x <;> cases y <;> first
    | exact absurd (object_class h) (by decide)
    | exact congrArg _ (DmrDataHeader.DataHeaderProprietary.toPy_inj h)
    | exact congrArg _ (DmrDataHeader.DataHeaderShortDefined.toPy_inj h)
    | exact congrArg _ (DmrDataHeader.DataHeaderUnconfirmed.toPy_inj h)
    | exact congrArg _ (DmrDataHeader.DataHeaderConfirmed.toPy_inj h)
    | exact congrArg _ (DmrDataHeader.DataHeaderUdt.toPy_inj h)
    | exact congrArg _ (DmrDataHeader.DataHeaderShortStatusPrecoded.toPy_inj h)
    | exact congrArg _ (DmrDataHeader.DataHeaderResponse.toPy_inj h)
    | exact congrArg _ (DmrDataHeader.DataHeaderUndefined.toPy_inj h)

end Dmr.Etsi

namespace Dmr.Etsi

theorem DmrIpUdp.UdpIpv4CompressedHeader.toPy_inj {x y : DmrIpUdp.UdpIpv4CompressedHeader} (h : x.toPy = y.toPy) : x = y := by
  have h := object_attrs h
  obtain ⟨h0, h⟩ := attr h
  replace h0 : x.ipv4_identification = y.ipv4_identification := bytes h0
  obtain ⟨h1, h⟩ := attr h
  replace h1 : x.source_ip_address_id = y.source_ip_address_id := enum h1
  obtain ⟨h2, h⟩ := attr h
  replace h2 : x.destination_ip_address_id = y.destination_ip_address_id := enum h2
  obtain ⟨h3, h⟩ := attr h
  replace h3 : x.header_compression_opcode_msb = y.header_compression_opcode_msb := bool h3
  obtain ⟨h4, h⟩ := attr h
  replace h4 : x.udp_source_port_id = y.udp_source_port_id := enum h4
  obtain ⟨h5, h⟩ := attr h
  replace h5 : x.header_compression_opcode_lsb = y.header_compression_opcode_lsb := bool h5
  obtain ⟨h6, h⟩ := attr h
  replace h6 : x.udp_destination_port_id = y.udp_destination_port_id := enum h6
  obtain ⟨h7, h⟩ := opt h (by names) (by names)
  replace h7 : x.udp_source_port = y.udp_source_port := option bytes h7
  obtain ⟨h8, h⟩ := opt h (by names) (by names)
  replace h8 : x.udp_destination_port = y.udp_destination_port := option bytes h8
  obtain ⟨h9, h⟩ := attr h
  replace h9 : x.user_data = y.user_data := bytes h9
  cases x; cases y
  dsimp only at h0 h1 h2 h3 h4 h5 h6 h7 h8 h9
  subst h0 h1 h2 h3 h4 h5 h6 h7 h8 h9
  rfl

theorem DmrIpUdp.toPy_inj {x y : DmrIpUdp} (h : x.toPy = y.toPy) : x = y := by
  cases x; cases y; rfl

end Dmr.Etsi

namespace Dmr.Etsi

theorem FullLinkControl.GpsInfoLcPdu.toPy_inj {x y : FullLinkControl.GpsInfoLcPdu} (h : x.toPy = y.toPy) : x = y := by
  have h := object_attrs h
  obtain ⟨h0, h⟩ := attr h
  replace h0 : x.reserved = y.reserved := nat h0
  obtain ⟨h1, h⟩ := attr h
  replace h1 : x.position_error = y.position_error := enum h1
  obtain ⟨h2, h⟩ := attr h
  replace h2 : x.longitude = y.longitude := nat h2
  obtain ⟨h3, h⟩ := attr h
  replace h3 : x.latitude = y.latitude := nat h3
  cases x; cases y
  dsimp only at h0 h1 h2 h3
  subst h0 h1 h2 h3
  rfl

theorem FullLinkControl.GroupVoiceChannelUser.toPy_inj {x y : FullLinkControl.GroupVoiceChannelUser} (h : x.toPy = y.toPy) : x = y := by
  have h := object_attrs h
  obtain ⟨h0, h⟩ := attr h
  replace h0 : x.service_options = y.service_options := nat h0
  obtain ⟨h1, h⟩ := attr h
  replace h1 : x.group_address = y.group_address := nat h1
  obtain ⟨h2, h⟩ := attr h
  replace h2 : x.source_address = y.source_address := nat h2
  cases x; cases y
  dsimp only at h0 h1 h2
  subst h0 h1 h2
  rfl

theorem FullLinkControl.UnitToUnitVoiceChannelUser.toPy_inj {x y : FullLinkControl.UnitToUnitVoiceChannelUser} (h : x.toPy = y.toPy) : x = y := by
  have h := object_attrs h
  obtain ⟨h0, h⟩ := attr h
  replace h0 : x.service_options = y.service_options := nat h0
  obtain ⟨h1, h⟩ := attr h
  replace h1 : x.target_address = y.target_address := nat h1
  obtain ⟨h2, h⟩ := attr h
  replace h2 : x.source_address = y.source_address := nat h2
  cases x; cases y
  dsimp only at h0 h1 h2
  subst h0 h1 h2
  rfl

theorem FullLinkControl.TalkerAliasHeader.toPy_inj {x y : FullLinkControl.TalkerAliasHeader} (h : x.toPy = y.toPy) : x = y := by
  have h := object_attrs h
  obtain ⟨h0, h⟩ := attr h
  replace h0 : x.talker_alias_data_format = y.talker_alias_data_format := enum h0
  obtain ⟨h1, h⟩ := attr h
  replace h1 : x.talker_alias_data_length = y.talker_alias_data_length := nat h1
  obtain ⟨h2, h⟩ := attr h
  replace h2 : x.talker_alias_data = y.talker_alias_data := nat h2
  cases x; cases y
  dsimp only at h0 h1 h2
  subst h0 h1 h2
  rfl

theorem FullLinkControl.TalkerAliasContinuation.toPy_inj {x y : FullLinkControl.TalkerAliasContinuation} (h : x.toPy = y.toPy) : x = y := by
  have h := object_attrs h
  obtain ⟨h0, h⟩ := attr h
  replace h0 : x.talker_alias_data = y.talker_alias_data := nat h0
  cases x; cases y
  dsimp only at h0
  subst h0
  rfl

theorem FullLinkControl.SpecificDataUnion.toPy_inj {x y : FullLinkControl.SpecificDataUnion} (h : x.toPy = y.toPy) : x = y := by
  cases x <;> cases y <;> first
    | exact absurd (object_class h) (by decide)
    | exact congrArg _ (FullLinkControl.TalkerAliasHeader.toPy_inj h)
    | exact congrArg _ (FullLinkControl.UnitToUnitVoiceChannelUser.toPy_inj h)
    | exact congrArg _ (FullLinkControl.GroupVoiceChannelUser.toPy_inj h)
    | exact congrArg _ (FullLinkControl.TalkerAliasContinuation.toPy_inj h)
    | exact congrArg _ (FullLinkControl.GpsInfoLcPdu.toPy_inj h)

theorem FullLinkControl.toPy_inj {x y : FullLinkControl} (h : x.toPy = y.toPy) : x = y := by
  have h := object_attrs h
  obtain ⟨h0, h⟩ := attr h
  replace h0 : x.protect_flag = y.protect_flag := bool h0
  obtain ⟨h1, h⟩ := attr h
  replace h1 : x.reserved = y.reserved := bool h1
  obtain ⟨h2, h⟩ := attr h
  replace h2 : x.full_link_control_opcode = y.full_link_control_opcode := enum h2
  obtain ⟨h3, h⟩ := attr h
  replace h3 : x.feature_set_id = y.feature_set_id := enum h3
  obtain ⟨h4, h⟩ := opt h (by names) (by names)
  replace h4 : x.specific_data = y.specific_data := option FullLinkControl.SpecificDataUnion.toPy_inj h4
  obtain ⟨h5, h⟩ := opt h (by names) (by names)
  replace h5 : x.crc_checksum = y.crc_checksum := option bytes h5
  obtain ⟨h6, h⟩ := opt h (by names) (by names)
  replace h6 : x.cs5_checksum = y.cs5_checksum := option nat h6
  cases x; cases y
  dsimp only at h0 h1 h2 h3 h4 h5 h6
  subst h0 h1 h2 h3 h4 h5 h6
  rfl

end Dmr.Etsi

namespace Dmr.Homebrew

theorem Homebrew2015.TypeMasterPing.toPy_inj {x y : Homebrew2015.TypeMasterPing} (h : x.toPy = y.toPy) : x = y := by
  have h := object_attrs h
  obtain ⟨h0, h⟩ := attr h
  replace h0 : x.magic = y.magic := bytes h0
  obtain ⟨h1, h⟩ := attr h
  replace h1 : x.repeater_id = y.repeater_id := nat h1
  cases x; cases y
  dsimp only at h0 h1
  subst h0 h1
  rfl

theorem Homebrew2015.TypeRepeaterPong.toPy_inj {x y : Homebrew2015.TypeRepeaterPong} (h : x.toPy = y.toPy) : x = y := by
  have h := object_attrs h
  obtain ⟨h0, h⟩ := attr h
  replace h0 : x.magic = y.magic := bytes h0
  obtain ⟨h1, h⟩ := attr h
  replace h1 : x.repeater_id = y.repeater_id := nat h1
  cases x; cases y
  dsimp only at h0 h1
  subst h0 h1
  rfl

theorem Homebrew2015.TypeRepeaterClosing.toPy_inj {x y : Homebrew2015.TypeRepeaterClosing} (h : x.toPy = y.toPy) : x = y := by
  have h := object_attrs h
  obtain ⟨h0, h⟩ := attr h
  replace h0 : x.magic = y.magic := bytes h0
  obtain ⟨h1, h⟩ := attr h
  replace h1 : x.repeater_id = y.repeater_id := nat h1
  cases x; cases y
  dsimp only at h0 h1
  subst h0 h1
  rfl

theorem Homebrew2015.TypeRepeaterConfiguration.toPy_inj {x y : Homebrew2015.TypeRepeaterConfiguration} (h : x.toPy = y.toPy) : x = y := by
  have h := object_attrs h
  obtain ⟨h0, h⟩ := attr h
  replace h0 : x.repeater_id = y.repeater_id := nat h0
  obtain ⟨h1, h⟩ := attr h
  replace h1 : x.call_sign = y.call_sign := str h1
  obtain ⟨h2, h⟩ := attr h
  replace h2 : x.rx_freq = y.rx_freq := str h2
  obtain ⟨h3, h⟩ := attr h
  replace h3 : x.tx_freq = y.tx_freq := str h3
  obtain ⟨h4, h⟩ := attr h
  replace h4 : x.tx_power = y.tx_power := str h4
  obtain ⟨h5, h⟩ := attr h
  replace h5 : x.color_code = y.color_code := str h5
  obtain ⟨h6, h⟩ := attr h
  replace h6 : x.latitude = y.latitude := str h6
  obtain ⟨h7, h⟩ := attr h
  replace h7 : x.longitude = y.longitude := str h7
  obtain ⟨h8, h⟩ := attr h
  replace h8 : x.antenna_height_above_ground = y.antenna_height_above_ground := str h8
  obtain ⟨h9, h⟩ := attr h
  replace h9 : x.location = y.location := str h9
  obtain ⟨h10, h⟩ := attr h
  replace h10 : x.description = y.description := str h10
  obtain ⟨h11, h⟩ := attr h
  replace h11 : x.url = y.url := str h11
  obtain ⟨h12, h⟩ := attr h
  replace h12 : x.software_id = y.software_id := str h12
  obtain ⟨h13, h⟩ := attr h
  replace h13 : x.package_id = y.package_id := str h13
  obtain ⟨h14, h⟩ := attr h
  replace h14 : x.unparsed_data = y.unparsed_data := str h14
  cases x; cases y
  dsimp only at h0 h1 h2 h3 h4 h5 h6 h7 h8 h9 h10 h11 h12 h13 h14
  subst h0 h1 h2 h3 h4 h5 h6 h7 h8 h9 h10 h11 h12 h13 h14
  rfl

theorem Homebrew2015.TypeRepeaterConfigurationOrClosing.DataUnion.toPy_inj {x y : Homebrew2015.TypeRepeaterConfigurationOrClosing.DataUnion} (h : x.toPy = y.toPy) : x = y := by
  cases x <;> cases y <;> first
    | exact absurd (object_class h) (by decide)
    | exact congrArg _ (Homebrew2015.TypeRepeaterClosing.toPy_inj h)
    | exact congrArg _ (Homebrew2015.TypeRepeaterConfiguration.toPy_inj h)

theorem Homebrew2015.TypeRepeaterConfigurationOrClosing.toPy_inj {x y : Homebrew2015.TypeRepeaterConfigurationOrClosing} (h : x.toPy = y.toPy) : x = y := by
  have h := object_attrs h
  obtain ⟨h0, h⟩ := attr h
  replace h0 : x.data = y.data := Homebrew2015.TypeRepeaterConfigurationOrClosing.DataUnion.toPy_inj h0
  cases x; cases y
  dsimp only at h0
  subst h0
  rfl

theorem Homebrew2015.TypeRepeaterLoginResponse.toPy_inj {x y : Homebrew2015.TypeRepeaterLoginResponse} (h : x.toPy = y.toPy) : x = y := by
  have h := object_attrs h
  obtain ⟨h0, h⟩ := attr h
  replace h0 : x.repeater_id = y.repeater_id := nat h0
  obtain ⟨h1, h⟩ := attr h
  replace h1 : x.sha256 = y.sha256 := bytes h1
  cases x; cases y
  dsimp only at h0 h1
  subst h0 h1
  rfl

theorem Homebrew2015.TypeRepeaterLoginRequest.toPy_inj {x y : Homebrew2015.TypeRepeaterLoginRequest} (h : x.toPy = y.toPy) : x = y := by
  have h := object_attrs h
  obtain ⟨h0, h⟩ := attr h
  replace h0 : x.repeater_id = y.repeater_id := nat h0
  cases x; cases y
  dsimp only at h0
  subst h0
  rfl

theorem Homebrew2015.TypeMasterNotAccept.toPy_inj {x y : Homebrew2015.TypeMasterNotAccept} (h : x.toPy = y.toPy) : x = y := by
  have h := object_attrs h
  obtain ⟨h0, h⟩ := attr h
  replace h0 : x.magic = y.magic := bytes h0
  obtain ⟨h1, h⟩ := attr h
  replace h1 : x.repeater_id = y.repeater_id := nat h1
  cases x; cases y
  dsimp only at h0 h1
  subst h0 h1
  rfl

theorem Homebrew2015.TypeMasterRepeaterAck.toPy_inj {x y : Homebrew2015.TypeMasterRepeaterAck} (h : x.toPy = y.toPy) : x = y := by
  have h := object_attrs h
  obtain ⟨h0, h⟩ := attr h
  replace h0 : x.magictype_master_repeater_ack = y.magictype_master_repeater_ack := bytes h0
  obtain ⟨h1, h⟩ := attr h
  replace h1 : x.repeater_id = y.repeater_id := nat h1
  obtain ⟨h2, h⟩ := opt h (by names) (by names)
  replace h2 : x.random_number = y.random_number := option nat h2
  cases x; cases y
  dsimp only at h0 h1 h2
  subst h0 h1 h2
  rfl

theorem Homebrew2015.TypeMasterClosing.toPy_inj {x y : Homebrew2015.TypeMasterClosing} (h : x.toPy = y.toPy) : x = y := by
  have h := object_attrs h
  obtain ⟨h0, h⟩ := attr h
  replace h0 : x.magic = y.magic := bytes h0
  obtain ⟨h1, h⟩ := attr h
  replace h1 : x.repeater_id = y.repeater_id := nat h1
  cases x; cases y
  dsimp only at h0 h1
  subst h0 h1
  rfl

theorem Homebrew2015.TypeDmrData.toPy_inj {x y : Homebrew2015.TypeDmrData} (h : x.toPy = y.toPy) : x = y := by
  have h := object_attrs h
  obtain ⟨h0, h⟩ := attr h
  replace h0 : x.sequence_no = y.sequence_no := nat h0
  obtain ⟨h1, h⟩ := attr h
  replace h1 : x.source_id = y.source_id := nat h1
  obtain ⟨h2, h⟩ := attr h
  replace h2 : x.target_id = y.target_id := nat h2
  obtain ⟨h3, h⟩ := attr h
  replace h3 : x.repeater_id = y.repeater_id := nat h3
  obtain ⟨h4, h⟩ := attr h
  replace h4 : x.slot_no = y.slot_no := enum h4
  obtain ⟨h5, h⟩ := attr h
  replace h5 : x.call_type = y.call_type := enum h5
  obtain ⟨h6, h⟩ := attr h
  replace h6 : x.frame_type = y.frame_type := enum h6
  obtain ⟨h7, h⟩ := attr h
  replace h7 : x.data_type = y.data_type := nat h7
  obtain ⟨h8, h⟩ := attr h
  replace h8 : x.stream_id = y.stream_id := nat h8
  obtain ⟨h9, h⟩ := attr h
  replace h9 : x.dmr_data = y.dmr_data := bytes h9
  obtain ⟨h10, h⟩ := opt h (by names) (by names)
  replace h10 : x.bit_error_rate = y.bit_error_rate := option nat h10
  obtain ⟨h11, h⟩ := opt h (by names) (by names)
  replace h11 : x.rssi = y.rssi := option nat h11
  cases x; cases y
  dsimp only at h0 h1 h2 h3 h4 h5 h6 h7 h8 h9 h10 h11
  subst h0 h1 h2 h3 h4 h5 h6 h7 h8 h9 h10 h11
  rfl

theorem Homebrew2015.TypeRepeaterOptions.toPy_inj {x y : Homebrew2015.TypeRepeaterOptions} (h : x.toPy = y.toPy) : x = y := by
  have h := object_attrs h
  obtain ⟨h0, h⟩ := attr h
  replace h0 : x.repeater_id = y.repeater_id := nat h0
  obtain ⟨h1, h⟩ := attr h
  replace h1 : x.options = y.options := str h1
  cases x; cases y
  dsimp only at h0 h1
  subst h0 h1
  rfl

theorem Homebrew2015.CommandDataUnion.toPy_inj {x y : Homebrew2015.CommandDataUnion} (h : x.toPy = y.toPy) : x = y := by
  cases x <;> cases y <;> first
    | exact absurd (object_class h) (by decide)
    | exact congrArg _ (Homebrew2015.TypeRepeaterLoginRequest.toPy_inj h)
    | exact congrArg _ (Homebrew2015.TypeMasterRepeaterAck.toPy_inj h)
    | exact congrArg _ (Homebrew2015.TypeRepeaterLoginResponse.toPy_inj h)
    | exact congrArg _ (Homebrew2015.TypeRepeaterConfigurationOrClosing.toPy_inj h)
    | exact congrArg _ (Homebrew2015.TypeDmrData.toPy_inj h)
    | exact congrArg _ (Homebrew2015.TypeMasterClosing.toPy_inj h)
    | exact congrArg _ (Homebrew2015.TypeRepeaterPong.toPy_inj h)
    | exact congrArg _ (Homebrew2015.TypeMasterPing.toPy_inj h)
    | exact congrArg _ (Homebrew2015.TypeMasterNotAccept.toPy_inj h)

theorem Homebrew2015.toPy_inj {x y : Homebrew2015} (h : x.toPy = y.toPy) : x = y := by
  have h := object_attrs h
  obtain ⟨h0, h⟩ := attr h
  replace h0 : x.command_prefix = y.command_prefix := str h0
  obtain ⟨h1, h⟩ := opt h (by names) (by names)
  obtain ⟨h2, h⟩ := opt h (by names) (by names)
  replace h2 : x.command_data = y.command_data := option Homebrew2015.CommandDataUnion.toPy_inj h2
  cases x; cases y
  dsimp only at h0 h2
  subst h0 h2
  rfl

end Dmr.Homebrew

namespace Dmr.Homebrew

theorem Mmdvm2020.TypeMasterPong.toPy_inj {x y : Mmdvm2020.TypeMasterPong} (h : x.toPy = y.toPy) : x = y := by
  have h := object_attrs h
  obtain ⟨h0, h⟩ := attr h
  replace h0 : x.magic = y.magic := bytes h0
  obtain ⟨h1, h⟩ := attr h
  replace h1 : x.repeater_id = y.repeater_id := nat h1
  cases x; cases y
  dsimp only at h0 h1
  subst h0 h1
  rfl

theorem Mmdvm2020.TypeRadioPosition.toPy_inj {x y : Mmdvm2020.TypeRadioPosition} (h : x.toPy = y.toPy) : x = y := by
  have h := object_attrs h
  obtain ⟨h0, h⟩ := attr h
  replace h0 : x.radio_id = y.radio_id := nat h0
  obtain ⟨h1, h⟩ := attr h
  replace h1 : x.reserved = y.reserved := nat h1
  obtain ⟨h2, h⟩ := attr h
  replace h2 : x.position_error = y.position_error := enum h2
  obtain ⟨h3, h⟩ := attr h
  replace h3 : x.longitude = y.longitude := nat h3
  obtain ⟨h4, h⟩ := attr h
  replace h4 : x.latitude = y.latitude := nat h4
  cases x; cases y
  dsimp only at h0 h1 h2 h3 h4
  subst h0 h1 h2 h3 h4
  rfl

theorem Mmdvm2020.TypeTalkerAlias.toPy_inj {x y : Mmdvm2020.TypeTalkerAlias} (h : x.toPy = y.toPy) : x = y := by
  have h := object_attrs h
  obtain ⟨h0, h⟩ := attr h
  replace h0 : x.radio_id = y.radio_id := nat h0
  obtain ⟨h1, h⟩ := attr h
  replace h1 : x.talker_alias_type = y.talker_alias_type := enum h1
  obtain ⟨h2, h⟩ := attr h
  replace h2 : x.talker_alias = y.talker_alias := str h2
  cases x; cases y
  dsimp only at h0 h1 h2
  subst h0 h1 h2
  rfl

theorem Mmdvm2020.TypeRepeaterClosing.toPy_inj {x y : Mmdvm2020.TypeRepeaterClosing} (h : x.toPy = y.toPy) : x = y := by
  have h := object_attrs h
  obtain ⟨h0, h⟩ := attr h
  replace h0 : x.magic = y.magic := bytes h0
  obtain ⟨h1, h⟩ := attr h
  replace h1 : x.repeater_id = y.repeater_id := nat h1
  cases x; cases y
  dsimp only at h0 h1
  subst h0 h1
  rfl

theorem Mmdvm2020.TypeRepeaterConfiguration.toPy_inj {x y : Mmdvm2020.TypeRepeaterConfiguration} (h : x.toPy = y.toPy) : x = y := by
  have h := object_attrs h
  obtain ⟨h0, h⟩ := attr h
  replace h0 : x.repeater_id = y.repeater_id := nat h0
  obtain ⟨h1, h⟩ := attr h
  replace h1 : x.call_sign = y.call_sign := str h1
  obtain ⟨h2, h⟩ := attr h
  replace h2 : x.rx_freq = y.rx_freq := str h2
  obtain ⟨h3, h⟩ := attr h
  replace h3 : x.tx_freq = y.tx_freq := str h3
  obtain ⟨h4, h⟩ := attr h
  replace h4 : x.tx_power = y.tx_power := str h4
  obtain ⟨h5, h⟩ := attr h
  replace h5 : x.color_code = y.color_code := str h5
  obtain ⟨h6, h⟩ := attr h
  replace h6 : x.latitude = y.latitude := str h6
  obtain ⟨h7, h⟩ := attr h
  replace h7 : x.longitude = y.longitude := str h7
  obtain ⟨h8, h⟩ := attr h
  replace h8 : x.antenna_height_above_ground = y.antenna_height_above_ground := str h8
  obtain ⟨h9, h⟩ := attr h
  replace h9 : x.location = y.location := str h9
  obtain ⟨h10, h⟩ := attr h
  replace h10 : x.description = y.description := str h10
  obtain ⟨h11, h⟩ := attr h
  replace h11 : x.slots = y.slots := str h11
  obtain ⟨h12, h⟩ := attr h
  replace h12 : x.url = y.url := str h12
  obtain ⟨h13, h⟩ := attr h
  replace h13 : x.software_id = y.software_id := str h13
  obtain ⟨h14, h⟩ := attr h
  replace h14 : x.package_id = y.package_id := str h14
  obtain ⟨h15, h⟩ := attr h
  replace h15 : x.unparsed_data = y.unparsed_data := str h15
  cases x; cases y
  dsimp only at h0 h1 h2 h3 h4 h5 h6 h7 h8 h9 h10 h11 h12 h13 h14 h15
  subst h0 h1 h2 h3 h4 h5 h6 h7 h8 h9 h10 h11 h12 h13 h14 h15
  rfl

theorem Mmdvm2020.TypeRepeaterConfigurationOrClosing.DataUnion.toPy_inj {x y : Mmdvm2020.TypeRepeaterConfigurationOrClosing.DataUnion} (h : x.toPy = y.toPy) : x = y := by
  cases x <;> cases y <;> first
    | exact absurd (object_class h) (by decide)
    | exact congrArg _ (Mmdvm2020.TypeRepeaterClosing.toPy_inj h)
    | exact congrArg _ (Mmdvm2020.TypeRepeaterConfiguration.toPy_inj h)

theorem Mmdvm2020.TypeRepeaterConfigurationOrClosing.toPy_inj {x y : Mmdvm2020.TypeRepeaterConfigurationOrClosing} (h : x.toPy = y.toPy) : x = y := by
  have h := object_attrs h
  obtain ⟨h0, h⟩ := attr h
  replace h0 : x.data = y.data := Mmdvm2020.TypeRepeaterConfigurationOrClosing.DataUnion.toPy_inj h0
  cases x; cases y
  dsimp only at h0
  subst h0
  rfl

theorem Mmdvm2020.TypeRepeaterLoginResponse.toPy_inj {x y : Mmdvm2020.TypeRepeaterLoginResponse} (h : x.toPy = y.toPy) : x = y := by
  have h := object_attrs h
  obtain ⟨h0, h⟩ := attr h
  replace h0 : x.repeater_id = y.repeater_id := nat h0
  obtain ⟨h1, h⟩ := attr h
  replace h1 : x.sha256 = y.sha256 := bytes h1
  cases x; cases y
  dsimp only at h0 h1
  subst h0 h1
  rfl

theorem Mmdvm2020.TypeRepeaterLoginRequest.toPy_inj {x y : Mmdvm2020.TypeRepeaterLoginRequest} (h : x.toPy = y.toPy) : x = y := by
  have h := object_attrs h
  obtain ⟨h0, h⟩ := attr h
  replace h0 : x.repeater_id = y.repeater_id := nat h0
  cases x; cases y
  dsimp only at h0
  subst h0
  rfl

theorem Mmdvm2020.TypeMasterNotAccept.toPy_inj {x y : Mmdvm2020.TypeMasterNotAccept} (h : x.toPy = y.toPy) : x = y := by
  have h := object_attrs h
  obtain ⟨h0, h⟩ := attr h
  replace h0 : x.magic = y.magic := bytes h0
  obtain ⟨h1, h⟩ := attr h
  replace h1 : x.repeater_id = y.repeater_id := nat h1
  cases x; cases y
  dsimp only at h0 h1
  subst h0 h1
  rfl

theorem Mmdvm2020.TypeUnknown.toPy_inj {x y : Mmdvm2020.TypeUnknown} (h : x.toPy = y.toPy) : x = y := by
  have h := object_attrs h
  obtain ⟨h0, h⟩ := attr h
  replace h0 : x.unknown_data = y.unknown_data := bytes h0
  cases x; cases y
  dsimp only at h0
  subst h0
  rfl

theorem Mmdvm2020.TypeMasterRepeaterAck.toPy_inj {x y : Mmdvm2020.TypeMasterRepeaterAck} (h : x.toPy = y.toPy) : x = y := by
  have h := object_attrs h
  obtain ⟨h0, h⟩ := attr h
  replace h0 : x.magic = y.magic := bytes h0
  obtain ⟨h1, h⟩ := attr h
  replace h1 : x.repeater_id_or_challenge = y.repeater_id_or_challenge := nat h1
  cases x; cases y
  dsimp only at h0 h1
  subst h0 h1
  rfl

theorem Mmdvm2020.TypeMasterClosing.toPy_inj {x y : Mmdvm2020.TypeMasterClosing} (h : x.toPy = y.toPy) : x = y := by
  have h := object_attrs h
  obtain ⟨h0, h⟩ := attr h
  replace h0 : x.magic = y.magic := bytes h0
  obtain ⟨h1, h⟩ := attr h
  replace h1 : x.repeater_id = y.repeater_id := nat h1
  cases x; cases y
  dsimp only at h0 h1
  subst h0 h1
  rfl

theorem Mmdvm2020.TypeDmrData.toPy_inj {x y : Mmdvm2020.TypeDmrData} (h : x.toPy = y.toPy) : x = y := by
  have h := object_attrs h
  obtain ⟨h0, h⟩ := attr h
  replace h0 : x.sequence_no = y.sequence_no := nat h0
  obtain ⟨h1, h⟩ := attr h
  replace h1 : x.source_id = y.source_id := nat h1
  obtain ⟨h2, h⟩ := attr h
  replace h2 : x.target_id = y.target_id := nat h2
  obtain ⟨h3, h⟩ := attr h
  replace h3 : x.repeater_id = y.repeater_id := nat h3
  obtain ⟨h4, h⟩ := attr h
  replace h4 : x.slot_no = y.slot_no := enum h4
  obtain ⟨h5, h⟩ := attr h
  replace h5 : x.call_type = y.call_type := enum h5
  obtain ⟨h6, h⟩ := attr h
  replace h6 : x.frame_type = y.frame_type := enum h6
  obtain ⟨h7, h⟩ := attr h
  replace h7 : x.data_type = y.data_type := nat h7
  obtain ⟨h8, h⟩ := attr h
  replace h8 : x.stream_id = y.stream_id := nat h8
  obtain ⟨h9, h⟩ := attr h
  replace h9 : x.dmr_data = y.dmr_data := bytes h9
  obtain ⟨h10, h⟩ := opt h (by names) (by names)
  replace h10 : x.bit_error_rate = y.bit_error_rate := option nat h10
  obtain ⟨h11, h⟩ := opt h (by names) (by names)
  replace h11 : x.rssi = y.rssi := option nat h11
  cases x; cases y
  dsimp only at h0 h1 h2 h3 h4 h5 h6 h7 h8 h9 h10 h11
  subst h0 h1 h2 h3 h4 h5 h6 h7 h8 h9 h10 h11
  rfl

theorem Mmdvm2020.TypeRepeaterBeacon.toPy_inj {x y : Mmdvm2020.TypeRepeaterBeacon} (h : x.toPy = y.toPy) : x = y := by
  cases x; cases y; rfl

theorem Mmdvm2020.TypeRepeaterOptions.toPy_inj {x y : Mmdvm2020.TypeRepeaterOptions} (h : x.toPy = y.toPy) : x = y := by
  have h := object_attrs h
  obtain ⟨h0, h⟩ := attr h
  replace h0 : x.repeater_id = y.repeater_id := nat h0
  obtain ⟨h1, h⟩ := attr h
  replace h1 : x.options = y.options := str h1
  cases x; cases y
  dsimp only at h0 h1
  subst h0 h1
  rfl

theorem Mmdvm2020.TypeRepeaterPing.toPy_inj {x y : Mmdvm2020.TypeRepeaterPing} (h : x.toPy = y.toPy) : x = y := by
  have h := object_attrs h
  obtain ⟨h0, h⟩ := attr h
  replace h0 : x.magic = y.magic := bytes h0
  obtain ⟨h1, h⟩ := attr h
  replace h1 : x.repeater_id = y.repeater_id := nat h1
  cases x; cases y
  dsimp only at h0 h1
  subst h0 h1
  rfl

theorem Mmdvm2020.CommandDataUnion.toPy_inj {x y : Mmdvm2020.CommandDataUnion} (h : x.toPy = y.toPy) : x = y := by
  cases x <;> cases y <;> first
    | exact absurd (object_class h) (by decide)
    | exact congrArg _ (Mmdvm2020.TypeRepeaterLoginRequest.toPy_inj h)
    | exact congrArg _ (Mmdvm2020.TypeRadioPosition.toPy_inj h)
    | exact congrArg _ (Mmdvm2020.TypeMasterRepeaterAck.toPy_inj h)
    | exact congrArg _ (Mmdvm2020.TypeRepeaterLoginResponse.toPy_inj h)
    | exact congrArg _ (Mmdvm2020.TypeRepeaterConfigurationOrClosing.toPy_inj h)
    | exact congrArg _ (Mmdvm2020.TypeDmrData.toPy_inj h)
    | exact congrArg _ (Mmdvm2020.TypeMasterClosing.toPy_inj h)
    | exact congrArg _ (Mmdvm2020.TypeRepeaterPing.toPy_inj h)
    | exact congrArg _ (Mmdvm2020.TypeRepeaterOptions.toPy_inj h)
    | exact congrArg _ (Mmdvm2020.TypeMasterPong.toPy_inj h)
    | exact congrArg _ (Mmdvm2020.TypeRepeaterBeacon.toPy_inj h)
    | exact congrArg _ (Mmdvm2020.TypeMasterNotAccept.toPy_inj h)
    | exact congrArg _ (Mmdvm2020.TypeTalkerAlias.toPy_inj h)

theorem Mmdvm2020.toPy_inj {x y : Mmdvm2020} (h : x.toPy = y.toPy) : x = y := by
  have h := object_attrs h
  obtain ⟨h0, h⟩ := attr h
  replace h0 : x.command_prefix = y.command_prefix := str h0
  obtain ⟨h1, h⟩ := opt h (by names) (by names)
  obtain ⟨h2, h⟩ := opt h (by names) (by names)
  replace h2 : x.command_data = y.command_data := option Mmdvm2020.CommandDataUnion.toPy_inj h2
  cases x; cases y
  dsimp only at h0 h2
  subst h0 h2
  rfl

end Dmr.Homebrew

namespace Dmr.Motorola

theorem AutomaticRegistrationService.MessageHeaderBits.toPy_inj {x y : AutomaticRegistrationService.MessageHeaderBits} (h : x.toPy = y.toPy) : x = y := by
  have h := object_attrs h
  obtain ⟨h0, h⟩ := attr h
  replace h0 : x.extension_bit = y.extension_bit := bool h0
  obtain ⟨h1, h⟩ := attr h
  replace h1 : x.acknowledgement_bit = y.acknowledgement_bit := bool h1
  obtain ⟨h2, h⟩ := attr h
  replace h2 : x.priority = y.priority := bool h2
  obtain ⟨h3, h⟩ := attr h
  replace h3 : x.control_user_bit = y.control_user_bit := bool h3
  obtain ⟨h4, h⟩ := attr h
  replace h4 : x.pdu_type = y.pdu_type := nat h4
  cases x; cases y
  dsimp only at h0 h1 h2 h3 h4
  subst h0 h1 h2 h3 h4
  rfl

theorem AutomaticRegistrationService.DeviceRegistrationAcknowledgementHeader.toPy_inj {x y : AutomaticRegistrationService.DeviceRegistrationAcknowledgementHeader} (h : x.toPy = y.toPy) : x = y := by
  have h := object_attrs h
  obtain ⟨h0, h⟩ := attr h
  replace h0 : x.extension_bit = y.extension_bit := bool h0
  obtain ⟨h1, h⟩ := attr h
  replace h1 : x.refresh_time = y.refresh_time := nat h1
  cases x; cases y
  dsimp only at h0 h1
  subst h0 h1
  rfl

theorem AutomaticRegistrationService.DeviceRegistrationAcknowledgementFailureReason.toPy_inj {x y : AutomaticRegistrationService.DeviceRegistrationAcknowledgementFailureReason} (h : x.toPy = y.toPy) : x = y := by
  have h := object_attrs h
  obtain ⟨h0, h⟩ := attr h
  replace h0 : x.extension_bit = y.extension_bit := bool h0
  obtain ⟨h1, h⟩ := attr h
  replace h1 : x.failure_reason = y.failure_reason := enum h1
  cases x; cases y
  dsimp only at h0 h1
  subst h0 h1
  rfl

theorem AutomaticRegistrationService.AcknowledgementMessage.toPy_inj {x y : AutomaticRegistrationService.AcknowledgementMessage} (h : x.toPy = y.toPy) : x = y := by
  have h := object_attrs h
  obtain ⟨h0, h⟩ := opt h (by names) (by names)
  replace h0 : x.device_registration_acknowledgement_header = y.device_registration_acknowledgement_header := option AutomaticRegistrationService.DeviceRegistrationAcknowledgementHeader.toPy_inj h0
  obtain ⟨h1, h⟩ := opt h (by names) (by names)
  replace h1 : x.device_registration_acknowledgement_failure_reason = y.device_registration_acknowledgement_failure_reason := option AutomaticRegistrationService.DeviceRegistrationAcknowledgementFailureReason.toPy_inj h1
  cases x; cases y
  dsimp only at h0 h1
  subst h0 h1
  rfl

theorem AutomaticRegistrationService.DeviceRegistrationMessageHeader.toPy_inj {x y : AutomaticRegistrationService.DeviceRegistrationMessageHeader} (h : x.toPy = y.toPy) : x = y := by
  have h := object_attrs h
  obtain ⟨h0, h⟩ := attr h
  replace h0 : x.extension_bit = y.extension_bit := bool h0
  obtain ⟨h1, h⟩ := attr h
  replace h1 : x.event = y.event := enum h1
  obtain ⟨h2, h⟩ := attr h
  replace h2 : x.encoding = y.encoding := nat h2
  cases x; cases y
  dsimp only at h0 h1 h2
  subst h0 h1 h2
  rfl

theorem AutomaticRegistrationService.DeviceDeregistrationMessage.toPy_inj {x y : AutomaticRegistrationService.DeviceDeregistrationMessage} (h : x.toPy = y.toPy) : x = y := by
  cases x; cases y; rfl

theorem AutomaticRegistrationService.DeviceRegistrationMessage.toPy_inj {x y : AutomaticRegistrationService.DeviceRegistrationMessage} (h : x.toPy = y.toPy) : x = y := by
  have h := object_attrs h
  obtain ⟨h0, h⟩ := opt h (by names) (by names)
  replace h0 : x.device_registration_message_header = y.device_registration_message_header := option AutomaticRegistrationService.DeviceRegistrationMessageHeader.toPy_inj h0
  obtain ⟨h1, h⟩ := attr h
  replace h1 : x.len_device_identifier = y.len_device_identifier := nat h1
  obtain ⟨h2, h⟩ := opt h (by names) (by names)
  replace h2 : x.device_identifier = y.device_identifier := option bytes h2
  obtain ⟨h3, h⟩ := attr h
  replace h3 : x.len_user_identifier = y.len_user_identifier := nat h3
  obtain ⟨h4, h⟩ := opt h (by names) (by names)
  replace h4 : x.user_identifier = y.user_identifier := option bytes h4
  obtain ⟨h5, h⟩ := attr h
  replace h5 : x.len_password = y.len_password := nat h5
  obtain ⟨h6, h⟩ := opt h (by names) (by names)
  replace h6 : x.password = y.password := option bytes h6
  cases x; cases y
  dsimp only at h0 h1 h2 h3 h4 h5 h6
  subst h0 h1 h2 h3 h4 h5 h6
  rfl

theorem AutomaticRegistrationService.ArsQueryMessage.toPy_inj {x y : AutomaticRegistrationService.ArsQueryMessage} (h : x.toPy = y.toPy) : x = y := by
  cases x; cases y; rfl

theorem AutomaticRegistrationService.PduContentUnion.toPy_inj {x y : AutomaticRegistrationService.PduContentUnion} (h : x.toPy = y.toPy) : x = y := by
  cases x <;> cases y <;> first
    | exact absurd (object_class h) (by decide)
    | exact congrArg _ (AutomaticRegistrationService.DeviceRegistrationMessage.toPy_inj h)
    | exact congrArg _ (AutomaticRegistrationService.DeviceDeregistrationMessage.toPy_inj h)
    | exact congrArg _ (AutomaticRegistrationService.ArsQueryMessage.toPy_inj h)
    | exact congrArg _ (AutomaticRegistrationService.AcknowledgementMessage.toPy_inj h)

theorem AutomaticRegistrationService.toPy_inj {x y : AutomaticRegistrationService} (h : x.toPy = y.toPy) : x = y := by
  have h := object_attrs h
  obtain ⟨h0, h⟩ := attr h
  replace h0 : x.message_size = y.message_size := nat h0
  obtain ⟨h1, h⟩ := attr h
  replace h1 : x.message_header = y.message_header := AutomaticRegistrationService.MessageHeaderBits.toPy_inj h1
  obtain ⟨h2, h⟩ := opt h (by names) (by names)
  replace h2 : x.pdu_content = y.pdu_content := option AutomaticRegistrationService.PduContentUnion.toPy_inj h2
  obtain ⟨h3, h⟩ := attr h
  replace h3 : x.unparsed_data = y.unparsed_data := bytes h3
  cases x; cases y
  dsimp only at h0 h1 h2 h3
  subst h0 h1 h2 h3
  rfl

end Dmr.Motorola

namespace Dmr.Motorola

theorem MotorolaBinaryXml.OpaqueElementValue.toPy_inj {x y : MotorolaBinaryXml.OpaqueElementValue} (h : x.toPy = y.toPy) : x = y := by
  have h := object_attrs h
  obtain ⟨h0, h⟩ := attr h
  replace h0 : x.len_value = y.len_value := nat h0
  obtain ⟨h1, h⟩ := attr h
  replace h1 : x.value = y.value := bytes h1
  cases x; cases y
  dsimp only at h0 h1
  subst h0 h1
  rfl

theorem MotorolaBinaryXml.Opaque1byteValue.toPy_inj {x y : MotorolaBinaryXml.Opaque1byteValue} (h : x.toPy = y.toPy) : x = y := by
  have h := object_attrs h
  obtain ⟨h0, h⟩ := attr h
  replace h0 : x.value = y.value := bytes h0
  cases x; cases y
  dsimp only at h0
  subst h0
  rfl

theorem MotorolaBinaryXml.Uintvar.toPy_inj {x y : MotorolaBinaryXml.Uintvar} (h : x.toPy = y.toPy) : x = y := by
  have h := object_attrs h
  obtain ⟨h0, h⟩ := attr h
  replace h0 : x.payload = y.payload := list nat h0
  cases x; cases y
  dsimp only at h0
  subst h0
  rfl

theorem MotorolaBinaryXml.ConstantDataTableReference.toPy_inj {x y : MotorolaBinaryXml.ConstantDataTableReference} (h : x.toPy = y.toPy) : x = y := by
  have h := object_attrs h
  obtain ⟨h0, h⟩ := attr h
  replace h0 : x.byte_offset_from_cdt_start = y.byte_offset_from_cdt_start := MotorolaBinaryXml.Uintvar.toPy_inj h0
  cases x; cases y
  dsimp only at h0
  subst h0
  rfl

theorem MotorolaBinaryXml.LrrpElement.LrrpElementDataUnion.toPy_inj {x y : MotorolaBinaryXml.LrrpElement.LrrpElementDataUnion} (h : x.toPy = y.toPy) : x = y := by
  cases x <;> cases y <;> first
    | exact absurd (object_class h) (by decide)
    | exact congrArg _ (MotorolaBinaryXml.OpaqueElementValue.toPy_inj h)
    | exact congrArg _ (MotorolaBinaryXml.Opaque1byteValue.toPy_inj h)
    | exact congrArg _ (MotorolaBinaryXml.ConstantDataTableReference.toPy_inj h)

theorem MotorolaBinaryXml.LrrpElement.toPy_inj {x y : MotorolaBinaryXml.LrrpElement} (h : x.toPy = y.toPy) : x = y := by
  have h := object_attrs h
  obtain ⟨h0, h⟩ := attr h
  replace h0 : x.lrrp_element_type = y.lrrp_element_type := enum h0
  obtain ⟨h1, h⟩ := opt h (by names) (by names)
  replace h1 : x.lrrp_element_data = y.lrrp_element_data := option MotorolaBinaryXml.LrrpElement.LrrpElementDataUnion.toPy_inj h1
  cases x; cases y
  dsimp only at h0 h1
  subst h0 h1
  rfl

theorem MotorolaBinaryXml.LrrpImmediateRequestNcdt.toPy_inj {x y : MotorolaBinaryXml.LrrpImmediateRequestNcdt} (h : x.toPy = y.toPy) : x = y := by
  have h := object_attrs h
  obtain ⟨h0, h⟩ := attr h
  replace h0 : x.elements = y.elements := MotorolaBinaryXml.LrrpElement.toPy_inj h0
  cases x; cases y
  dsimp only at h0
  subst h0
  rfl

theorem MotorolaBinaryXml.Opaque3byteValue.toPy_inj {x y : MotorolaBinaryXml.Opaque3byteValue} (h : x.toPy = y.toPy) : x = y := by
  have h := object_attrs h
  obtain ⟨h0, h⟩ := attr h
  replace h0 : x.value = y.value := bytes h0
  cases x; cases y
  dsimp only at h0
  subst h0
  rfl

theorem MotorolaBinaryXml.Sintvar.toPy_inj {x y : MotorolaBinaryXml.Sintvar} (h : x.toPy = y.toPy) : x = y := by
  have h := object_attrs h
  obtain ⟨h0, h⟩ := attr h
  replace h0 : x.payload = y.payload := list nat h0
  cases x; cases y
  dsimp only at h0
  subst h0
  rfl

theorem MotorolaBinaryXml.Sfloatvar.toPy_inj {x y : MotorolaBinaryXml.Sfloatvar} (h : x.toPy = y.toPy) : x = y := by
  have h := object_attrs h
  obtain ⟨h0, h⟩ := attr h
  replace h0 : x.sint_payload = y.sint_payload := MotorolaBinaryXml.Sintvar.toPy_inj h0
  obtain ⟨h1, h⟩ := attr h
  replace h1 : x.fraction_payload = y.fraction_payload := MotorolaBinaryXml.Uintvar.toPy_inj h1
  cases x; cases y
  dsimp only at h0 h1
  subst h0 h1
  rfl

theorem MotorolaBinaryXml.Opaque5byteValue.toPy_inj {x y : MotorolaBinaryXml.Opaque5byteValue} (h : x.toPy = y.toPy) : x = y := by
  have h := object_attrs h
  obtain ⟨h0, h⟩ := attr h
  replace h0 : x.value = y.value := bytes h0
  cases x; cases y
  dsimp only at h0
  subst h0
  rfl

theorem MotorolaBinaryXml.Ufloatvar.toPy_inj {x y : MotorolaBinaryXml.Ufloatvar} (h : x.toPy = y.toPy) : x = y := by
  have h := object_attrs h
  obtain ⟨h0, h⟩ := attr h
  replace h0 : x.uint_payload = y.uint_payload := MotorolaBinaryXml.Uintvar.toPy_inj h0
  obtain ⟨h1, h⟩ := attr h
  replace h1 : x.fraction_payload = y.fraction_payload := MotorolaBinaryXml.Uintvar.toPy_inj h1
  cases x; cases y
  dsimp only at h0 h1
  subst h0 h1
  rfl

theorem MotorolaBinaryXml.MbxmlDocument.DocumentDataUnion.toPy_inj {x y : MotorolaBinaryXml.MbxmlDocument.DocumentDataUnion} (h : x.toPy = y.toPy) : x = y := by
  cases x <;> cases y <;> first
    | exact absurd (object_class h) (by decide)
    | exact congrArg _ (MotorolaBinaryXml.LrrpImmediateRequestNcdt.toPy_inj h)

theorem MotorolaBinaryXml.MbxmlDocument.toPy_inj {x y : MotorolaBinaryXml.MbxmlDocument} (h : x.toPy = y.toPy) : x = y := by
  have h := object_attrs h
  obtain ⟨h0, h⟩ := attr h
  replace h0 : x.document_id = y.document_id := enum h0
  obtain ⟨h1, h⟩ := attr h
  replace h1 : x.num_document_bytes = y.num_document_bytes := MotorolaBinaryXml.Uintvar.toPy_inj h1
  obtain ⟨h2, h⟩ := opt h (by names) (by names)
  replace h2 : x.document_data = y.document_data := option MotorolaBinaryXml.MbxmlDocument.DocumentDataUnion.toPy_inj h2
  cases x; cases y
  dsimp only at h0 h1 h2
  subst h0 h1 h2
  rfl

theorem MotorolaBinaryXml.Opaque2byteValue.toPy_inj {x y : MotorolaBinaryXml.Opaque2byteValue} (h : x.toPy = y.toPy) : x = y := by
  have h := object_attrs h
  obtain ⟨h0, h⟩ := attr h
  replace h0 : x.value = y.value := bytes h0
  cases x; cases y
  dsimp only at h0
  subst h0
  rfl

theorem MotorolaBinaryXml.Opaque4byteValue.toPy_inj {x y : MotorolaBinaryXml.Opaque4byteValue} (h : x.toPy = y.toPy) : x = y := by
  have h := object_attrs h
  obtain ⟨h0, h⟩ := attr h
  replace h0 : x.value = y.value := bytes h0
  cases x; cases y
  dsimp only at h0
  subst h0
  rfl

theorem MotorolaBinaryXml.toPy_inj {x y : MotorolaBinaryXml} (h : x.toPy = y.toPy) : x = y := by
  have h := object_attrs h
  obtain ⟨h0, h⟩ := attr h
  replace h0 : x.documents = y.documents := list MotorolaBinaryXml.MbxmlDocument.toPy_inj h0
  cases x; cases y
  dsimp only at h0
  subst h0
  rfl

end Dmr.Motorola

namespace Dmr.Motorola

theorem TextMessageProtocol.MessageHeaderBits.toPy_inj {x y : TextMessageProtocol.MessageHeaderBits} (h : x.toPy = y.toPy) : x = y := by
  have h := object_attrs h
  obtain ⟨h0, h⟩ := attr h
  replace h0 : x.extension_bit = y.extension_bit := bool h0
  obtain ⟨h1, h⟩ := attr h
  replace h1 : x.acknowledgement_required = y.acknowledgement_required := bool h1
  obtain ⟨h2, h⟩ := attr h
  replace h2 : x.reserved = y.reserved := bool h2
  obtain ⟨h3, h⟩ := attr h
  replace h3 : x.control_user_bit = y.control_user_bit := bool h3
  obtain ⟨h4, h⟩ := attr h
  replace h4 : x.pdu_type = y.pdu_type := nat h4
  cases x; cases y
  dsimp only at h0 h1 h2 h3 h4
  subst h0 h1 h2 h3 h4
  rfl

theorem TextMessageProtocol.TextMessageHeaderSequenceAndEncoding.toPy_inj {x y : TextMessageProtocol.TextMessageHeaderSequenceAndEncoding} (h : x.toPy = y.toPy) : x = y := by
  have h := object_attrs h
  obtain ⟨h0, h⟩ := attr h
  replace h0 : x.has_encoding_header = y.has_encoding_header := bool h0
  obtain ⟨h1, h⟩ := attr h
  replace h1 : x.reserved_1 = y.reserved_1 := nat h1
  obtain ⟨h2, h⟩ := attr h
  replace h2 : x.sequence_number_lsb_bits = y.sequence_number_lsb_bits := nat h2
  obtain ⟨h3, h⟩ := opt h (by names) (by names)
  replace h3 : x.header_encoding_extension = y.header_encoding_extension := option bool h3
  obtain ⟨h4, h⟩ := opt h (by names) (by names)
  replace h4 : x.sequence_number_msb_bits = y.sequence_number_msb_bits := option nat h4
  obtain ⟨h5, h⟩ := attr h
  replace h5 : x.encoding = y.encoding := nat h5
  cases x; cases y
  dsimp only at h0 h1 h2 h3 h4 h5
  subst h0 h1 h2 h3 h4 h5
  rfl

theorem TextMessageProtocol.TextMessage.toPy_inj {x y : TextMessageProtocol.TextMessage} (h : x.toPy = y.toPy) : x = y := by
  have h := object_attrs h
  obtain ⟨h0, h⟩ := opt h (by names) (by names)
  replace h0 : x.text_message_header_sequence_and_encoding = y.text_message_header_sequence_and_encoding := option TextMessageProtocol.TextMessageHeaderSequenceAndEncoding.toPy_inj h0
  obtain ⟨h1, h⟩ := attr h
  replace h1 : x.text_message = y.text_message := str h1
  cases x; cases y
  dsimp only at h0 h1
  subst h0 h1
  rfl

theorem TextMessageProtocol.TmsServiceAvailabilityHeader.toPy_inj {x y : TextMessageProtocol.TmsServiceAvailabilityHeader} (h : x.toPy = y.toPy) : x = y := by
  have h := object_attrs h
  obtain ⟨h0, h⟩ := attr h
  replace h0 : x.extension_bit = y.extension_bit := bool h0
  obtain ⟨h1, h⟩ := attr h
  replace h1 : x.reserved = y.reserved := nat h1
  obtain ⟨h2, h⟩ := attr h
  replace h2 : x.device = y.device := enum h2
  cases x; cases y
  dsimp only at h0 h1 h2
  subst h0 h1 h2
  rfl

theorem TextMessageProtocol.TmsServiceAvailability.toPy_inj {x y : TextMessageProtocol.TmsServiceAvailability} (h : x.toPy = y.toPy) : x = y := by
  have h := object_attrs h
  obtain ⟨h0, h⟩ := opt h (by names) (by names)
  replace h0 : x.header = y.header := option TextMessageProtocol.TmsServiceAvailabilityHeader.toPy_inj h0
  cases x; cases y
  dsimp only at h0
  subst h0
  rfl

theorem TextMessageProtocol.TmsAcknowledgementHeaderSequenceNumber.toPy_inj {x y : TextMessageProtocol.TmsAcknowledgementHeaderSequenceNumber} (h : x.toPy = y.toPy) : x = y := by
  have h := object_attrs h
  obtain ⟨h0, h⟩ := attr h
  replace h0 : x.has_msb_header = y.has_msb_header := bool h0
  obtain ⟨h1, h⟩ := attr h
  replace h1 : x.header_lsb_reserved = y.header_lsb_reserved := nat h1
  obtain ⟨h2, h⟩ := attr h
  replace h2 : x.header_lsb_bits = y.header_lsb_bits := nat h2
  obtain ⟨h3, h⟩ := opt h (by names) (by names)
  replace h3 : x.header_msb_extension = y.header_msb_extension := option bool h3
  obtain ⟨h4, h⟩ := opt h (by names) (by names)
  replace h4 : x.header_msb_bits = y.header_msb_bits := option nat h4
  obtain ⟨h5, h⟩ := opt h (by names) (by names)
  replace h5 : x.header_msb_reserved = y.header_msb_reserved := option nat h5
  cases x; cases y
  dsimp only at h0 h1 h2 h3 h4 h5
  subst h0 h1 h2 h3 h4 h5
  rfl

theorem TextMessageProtocol.TmsAcknowledgement.toPy_inj {x y : TextMessageProtocol.TmsAcknowledgement} (h : x.toPy = y.toPy) : x = y := by
  have h := object_attrs h
  obtain ⟨h0, h⟩ := opt h (by names) (by names)
  replace h0 : x.tms_acknowledgement_header_sequence_number = y.tms_acknowledgement_header_sequence_number := option TextMessageProtocol.TmsAcknowledgementHeaderSequenceNumber.toPy_inj h0
  cases x; cases y
  dsimp only at h0
  subst h0
  rfl

theorem TextMessageProtocol.TmsServiceAvailabilityAcknowledgement.toPy_inj {x y : TextMessageProtocol.TmsServiceAvailabilityAcknowledgement} (h : x.toPy = y.toPy) : x = y := by
  cases x; cases y; rfl

theorem TextMessageProtocol.PduContentUnion.toPy_inj {x y : TextMessageProtocol.PduContentUnion} (h : x.toPy = y.toPy) : x = y := by
  cases x <;> cases y <;> first
    | exact absurd (object_class h) (by decide)
    | exact congrArg _ (TextMessageProtocol.TmsServiceAvailability.toPy_inj h)
    | exact congrArg _ (TextMessageProtocol.TmsAcknowledgement.toPy_inj h)
    | exact congrArg _ (TextMessageProtocol.TextMessage.toPy_inj h)

theorem TextMessageProtocol.toPy_inj {x y : TextMessageProtocol} (h : x.toPy = y.toPy) : x = y := by
  have h := object_attrs h
  obtain ⟨h0, h⟩ := attr h
  replace h0 : x.message_size = y.message_size := nat h0
  obtain ⟨h1, h⟩ := attr h
  replace h1 : x.message_header = y.message_header := TextMessageProtocol.MessageHeaderBits.toPy_inj h1
  obtain ⟨h2, h⟩ := attr h
  replace h2 : x.len_address = y.len_address := nat h2
  obtain ⟨h3, h⟩ := opt h (by names) (by names)
  replace h3 : x.address = y.address := option bytes h3
  obtain ⟨h4, h⟩ := attr h
  obtain ⟨h5, h⟩ := opt h (by names) (by names)
  replace h5 : x.pdu_content = y.pdu_content := option TextMessageProtocol.PduContentUnion.toPy_inj h5
  obtain ⟨h6, h⟩ := attr h
  replace h6 : x.unparsed_data = y.unparsed_data := bytes h6
  cases x; cases y
  dsimp only at h0 h1 h2 h3 h5 h6
  subst h0 h1 h2 h3 h5 h6
  rfl

end Dmr.Motorola

