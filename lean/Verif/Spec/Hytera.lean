import Verif.Spec
import Verif.Spec.Text
import Verif.Spec.Parse
import Verif.Model.Hytera.RadioIp
import Verif.Model.Hytera.RadioId
import Verif.Model.Hytera.Gpsdata
import Verif.Model.Hytera.Datetimestring
import Verif.Model.Hytera.Intervalstring
import Verif.Model.Hytera.DataDeliveryStates
import Verif.Model.Hytera.DataTransmitProtocol
import Verif.Model.Hytera.LocationProtocol
import Verif.Model.Hytera.RadioControlProtocol
import Verif.Model.Hytera.RadioRegistrationService
import Verif.Model.Hytera.TelemetryProtocol
import Verif.Model.Hytera.TextMessageProtocol
import Verif.Model.Hytera.HyteraDmrApplicationProtocol
import Verif.Model.Hytera.HyteraRadioNetworkProtocol
import Verif.Model.Hytera.HyteraSimpleTransportReliabilityProtocol
import Verif.Model.Hytera.IpSiteConnectHeartbeat
import Verif.Model.Hytera.IpSiteConnectProtocol
import Verif.Model.Hytera.RealTimeTransportProtocol
/-
Where the fields of the fixed-size Hytera structures lie: `X.spec b q` is the object that the bytes of `b`
from offset `q` on stand for. Offsets are those of the protocol documents; nothing here reads a stream.
-/

namespace Dmr.Hytera

/-- `RadioIp`, 4 bytes. -/
def RadioIp.spec (b : Bytes) (q : Nat) : RadioIp where
  subnet := u8 b q
  radio_id_1 := u8 b (q + 1)
  radio_id_2 := u8 b (q + 2)
  radio_id_3 := u8 b (q + 3)

/-- `RadioId`, 4 bytes. -/
def RadioId.spec (b : Bytes) (q : Nat) : RadioId where
  radio_id_raw := u32le b q

/-- `Gpsdata`, 40 bytes. -/
def Gpsdata.spec (b : Bytes) (q : Nat) : Gpsdata where
  gps_status := slice b q 1
  gps_time := slice b (q + 1) 6
  gps_date := slice b (q + 7) 6
  north_south := slice b (q + 13) 1
  latitude := slice b (q + 14) 9
  east_west := slice b (q + 23) 1
  longitude := slice b (q + 24) 10
  speed := slice b (q + 34) 3
  direction := slice b (q + 37) 3

/-- `DataDeliveryStates`, 11 bytes. -/
def DataDeliveryStates.spec (b : Bytes) (q : Nat) : DataDeliveryStates where
  reserved := slice b q 1
  state_type := resolveEnum _ (u8 b (q + 1))
  message_length := u16be b (q + 2)
  radio_ip := .spec b (q + 4)
  protocol_opcode := u16be b (q + 8)
  result := resolveEnum _ (u8 b (q + 10))

/-- `DataTransmitProtocol.LastDataSlice`, 8 bytes. -/
def DataTransmitProtocol.LastDataSlice.spec (b : Bytes) (q : Nat) : DataTransmitProtocol.LastDataSlice where
  destination_ip := .spec b q
  source_ip := .spec b (q + 4)

/-- `DataTransmitProtocol.DataSliceAnswer`, 11 bytes. -/
def DataTransmitProtocol.DataSliceAnswer.spec (b : Bytes) (q : Nat) : DataTransmitProtocol.DataSliceAnswer where
  destination_ip := .spec b q
  source_ip := .spec b (q + 4)
  block_number := u16be b (q + 8)
  result := resolveEnum _ (u8 b (q + 10))

/-- `DataTransmitProtocol.LastDataSliceAnswer`, 9 bytes. -/
def DataTransmitProtocol.LastDataSliceAnswer.spec (b : Bytes) (q : Nat) : DataTransmitProtocol.LastDataSliceAnswer where
  destination_ip := .spec b q
  source_ip := .spec b (q + 4)
  result := resolveEnum _ (u8 b (q + 8))

/-- `DataTransmitProtocol.DtpAnswer`, 9 bytes. -/
def DataTransmitProtocol.DtpAnswer.spec (b : Bytes) (q : Nat) : DataTransmitProtocol.DtpAnswer where
  destination_ip := .spec b q
  source_ip := .spec b (q + 4)
  result := resolveEnum _ (u8 b (q + 8))

/-- `LocationProtocol.TriggeredReportStopAnswer`, 10 bytes. -/
def LocationProtocol.TriggeredReportStopAnswer.spec (b : Bytes) (q : Nat) : LocationProtocol.TriggeredReportStopAnswer where
  request_id := u32be b q
  radio_ip := .spec b (q + 4)
  result := resolveEnum _ (u16be b (q + 8))

/-- `LocationProtocol.ConditionReport`, 48 bytes. -/
def LocationProtocol.ConditionReport.spec (b : Bytes) (q : Nat) : LocationProtocol.ConditionReport where
  request_id := u32be b q
  radio_ip := .spec b (q + 4)
  gpsdata := .spec b (q + 8)

/-- `LocationProtocol.EmergencyReport`, 45 bytes. -/
def LocationProtocol.EmergencyReport.spec (b : Bytes) (q : Nat) : LocationProtocol.EmergencyReport where
  radio_ip := .spec b q
  emergency_type := u8 b (q + 4)
  gpsdata := .spec b (q + 5)

/-- `LocationProtocol.TriggeredReportAnswer`, 10 bytes. -/
def LocationProtocol.TriggeredReportAnswer.spec (b : Bytes) (q : Nat) : LocationProtocol.TriggeredReportAnswer where
  request_id := u32be b q
  radio_ip := .spec b (q + 4)
  result := resolveEnum _ (u16be b (q + 8))

/-- `LocationProtocol.StandardAnswerWithRssi`, 52 bytes. -/
def LocationProtocol.StandardAnswerWithRssi.spec (b : Bytes) (q : Nat) : LocationProtocol.StandardAnswerWithRssi where
  request_id := u32be b q
  radio_ip := .spec b (q + 4)
  result := resolveEnum _ (u16be b (q + 8))
  gpsdata := .spec b (q + 10)
  rssi_value := s16be b (q + 50)

/-- `LocationProtocol.StandardRequest`, 8 bytes. -/
def LocationProtocol.StandardRequest.spec (b : Bytes) (q : Nat) : LocationProtocol.StandardRequest where
  request_id := u32be b q
  radio_ip := .spec b (q + 4)

/-- `LocationProtocol.StandardAnswer`, 50 bytes. -/
def LocationProtocol.StandardAnswer.spec (b : Bytes) (q : Nat) : LocationProtocol.StandardAnswer where
  request_id := u32be b q
  radio_ip := .spec b (q + 4)
  result := resolveEnum _ (u16be b (q + 8))
  gpsdata := .spec b (q + 10)

/-- `LocationProtocol.ConditionReportAnswer`, 11 bytes. -/
def LocationProtocol.ConditionReportAnswer.spec (b : Bytes) (q : Nat) : LocationProtocol.ConditionReportAnswer where
  request_id := u32be b q
  radio_ip := .spec b (q + 4)
  trigger_type := resolveEnum _ (u8 b (q + 8))
  result := resolveEnum _ (u16be b (q + 9))

/-- `LocationProtocol.EmergencyReportStopRequest`, 8 bytes. -/
def LocationProtocol.EmergencyReportStopRequest.spec (b : Bytes) (q : Nat) : LocationProtocol.EmergencyReportStopRequest where
  request_id := u32be b q
  radio_ip := .spec b (q + 4)

/-- `LocationProtocol.ConditionQuickGpsAnswer`, 11 bytes. -/
def LocationProtocol.ConditionQuickGpsAnswer.spec (b : Bytes) (q : Nat) : LocationProtocol.ConditionQuickGpsAnswer where
  request_id := u32be b q
  radio_ip := .spec b (q + 4)
  cmd_type := resolveEnum _ (u8 b (q + 8))
  result := resolveEnum _ (u16be b (q + 9))

/-- `LocationProtocol.ConditionReportWithRssi`, 52 bytes. -/
def LocationProtocol.ConditionReportWithRssi.spec (b : Bytes) (q : Nat) : LocationProtocol.ConditionReportWithRssi where
  request_id := u32be b q
  radio_ip := .spec b (q + 4)
  result := resolveEnum _ (u16be b (q + 8))
  gpsdata := .spec b (q + 10)
  rssi_value := s16be b (q + 50)

/-- `LocationProtocol.EmergencyReportStopAnswer`, 10 bytes. -/
def LocationProtocol.EmergencyReportStopAnswer.spec (b : Bytes) (q : Nat) : LocationProtocol.EmergencyReportStopAnswer where
  request_id := u32be b q
  radio_ip := .spec b (q + 4)
  result := resolveEnum _ (u16be b (q + 8))

/-- `LocationProtocol.TriggeredReportStopRequest`, 8 bytes. -/
def LocationProtocol.TriggeredReportStopRequest.spec (b : Bytes) (q : Nat) : LocationProtocol.TriggeredReportStopRequest where
  request_id := u32be b q
  radio_ip := .spec b (q + 4)

/-- `RadioControlProtocol.BroadcastStatusConfigurationReply`, 1 byte. -/
def RadioControlProtocol.BroadcastStatusConfigurationReply.spec (b : Bytes) (q : Nat) : RadioControlProtocol.BroadcastStatusConfigurationReply where
  result := resolveEnum _ (u8 b q)

/-- `RadioControlProtocol.BroadcastConfiguration`, 2 bytes. -/
def RadioControlProtocol.BroadcastConfiguration.spec (b : Bytes) (q : Nat) : RadioControlProtocol.BroadcastConfiguration where
  config_operation := u8 b q
  config_target := u8 b (q + 1)

/-- `RadioControlProtocol.CallRequest`, 5 bytes. -/
def RadioControlProtocol.CallRequest.spec (b : Bytes) (q : Nat) : RadioControlProtocol.CallRequest where
  call_type := resolveEnum _ (u8 b q)
  target_id := u32le b (q + 1)

/-- `RadioControlProtocol.RemoveRadioReply`, 1 byte. -/
def RadioControlProtocol.RemoveRadioReply.spec (b : Bytes) (q : Nat) : RadioControlProtocol.RemoveRadioReply where
  result := resolveEnum _ (u8 b q)

/-- `RadioControlProtocol.CallReply`, 1 byte. -/
def RadioControlProtocol.CallReply.spec (b : Bytes) (q : Nat) : RadioControlProtocol.CallReply where
  result := resolveEnum _ (u8 b q)

/-- `TelemetryProtocol.StandardStatusReport`, 12 bytes. -/
def TelemetryProtocol.StandardStatusReport.spec (b : Bytes) (q : Nat) : TelemetryProtocol.StandardStatusReport where
  source_ip := .spec b q
  target_ip := .spec b (q + 4)
  pc_flag := resolveEnum _ (u8 b (q + 8))
  call_type := resolveEnum _ (u8 b (q + 9))
  vio_select := slice b (q + 10) 1
  result := resolveEnum _ (u8 b (q + 11))

/-- `TelemetryProtocol.RemoteControlAnswer`, 12 bytes. -/
def TelemetryProtocol.RemoteControlAnswer.spec (b : Bytes) (q : Nat) : TelemetryProtocol.RemoteControlAnswer where
  source_ip := .spec b q
  target_ip := .spec b (q + 4)
  pc_flag := resolveEnum _ (u8 b (q + 8))
  call_type := resolveEnum _ (u8 b (q + 9))
  vio_select := slice b (q + 10) 1
  result := resolveEnum _ (u8 b (q + 11))

/-- `TelemetryProtocol.RemoteControlRequest`, 12 bytes. -/
def TelemetryProtocol.RemoteControlRequest.spec (b : Bytes) (q : Nat) : TelemetryProtocol.RemoteControlRequest where
  source_ip := .spec b q
  target_ip := .spec b (q + 4)
  pc_flag := resolveEnum _ (u8 b (q + 8))
  call_type := resolveEnum _ (u8 b (q + 9))
  vio_select := slice b (q + 10) 1
  operation := resolveEnum _ (u8 b (q + 11))

/-- `TelemetryProtocol.StandardStatusRequest`, 11 bytes. -/
def TelemetryProtocol.StandardStatusRequest.spec (b : Bytes) (q : Nat) : TelemetryProtocol.StandardStatusRequest where
  source_ip := .spec b q
  target_ip := .spec b (q + 4)
  pc_flag := resolveEnum _ (u8 b (q + 8))
  call_type := resolveEnum _ (u8 b (q + 9))
  vio_select := slice b (q + 10) 1

/-- `RealTimeTransportProtocol.HeaderExtension`, 18 bytes. -/
def RealTimeTransportProtocol.HeaderExtension.spec (b : Bytes) (q : Nat) : RealTimeTransportProtocol.HeaderExtension where
  header_identifier := u16be b q
  length := u16be b (q + 2)
  slot := bitsAt b (8 * q + 32) 7
  last_flag := flagAt b (8 * q + 39)
  source_id := .spec b (q + 5)
  destination_id := .spec b (q + 9)
  call_type := resolveEnum _ (u8 b (q + 13))
  reserved := slice b (q + 14) 4

end Dmr.Hytera
