import Verif.Ksy.Conform.AutomaticRegistrationService
import Verif.Ksy.Conform.DataDeliveryStates
import Verif.Ksy.Conform.DataTransmitProtocol
import Verif.Ksy.Conform.Datetimestring
import Verif.Ksy.Conform.DmrCsbk
import Verif.Ksy.Conform.DmrData
import Verif.Ksy.Conform.DmrDataHeader
import Verif.Ksy.Conform.DmrIpUdp
import Verif.Ksy.Conform.FullLinkControl
import Verif.Ksy.Conform.Gpsdata
import Verif.Ksy.Conform.Homebrew2015
import Verif.Ksy.Conform.HyteraDmrApplicationProtocol
import Verif.Ksy.Conform.HyteraRadioNetworkProtocol
import Verif.Ksy.Conform.HyteraSimpleTransportReliabilityProtocol
import Verif.Ksy.Conform.Instances
import Verif.Ksy.Conform.Intervalstring
import Verif.Ksy.Conform.IpSiteConnectHeartbeat
import Verif.Ksy.Conform.IpSiteConnectProtocol
import Verif.Ksy.Conform.LocationProtocol
import Verif.Ksy.Conform.Mmdvm2020
import Verif.Ksy.Conform.MotorolaBinaryXml
import Verif.Ksy.Conform.RadioControlProtocol
import Verif.Ksy.Conform.RadioId
import Verif.Ksy.Conform.RadioIp
import Verif.Ksy.Conform.RadioRegistrationService
import Verif.Ksy.Conform.RealTimeTransportProtocol
import Verif.Ksy.Conform.TelemetryProtocol
import Verif.Ksy.Conform.TextMessageProtocol
import Verif.Ksy.Conform.TextMessageProtocolMotorola
/-
Generated by tools/mkschemalist.py: the types of the schemas beside the Python classes.
-/

set_option maxRecDepth 4000

namespace Dmr.Ksy

/-- A type of a schema, and the Python class of the same name in the module of the same name: `read` decodes an object at the
position of a stream. -/
structure PyClass where
  file : String
  schema : TypeDef
  read : Rd PyVal

theorem view_read (f : α → PyVal) (r : Rd α) : (fun x => view (f x)) <$> r = view <$> (f <$> r) := by
  simp only [map_eq_pure_bind, bind_assoc, pure_bind]

/-- The classes that stand for a whole schema file: all of them. -/
def fileClasses : List PyClass :=
  [⟨"okdmr/kaitai/hytera/radio_ip", Hytera.RadioIp, Dmr.Hytera.RadioIp.toPy <$> Dmr.Hytera.RadioIp.read⟩,
   ⟨"okdmr/kaitai/hytera/data_delivery_states", Hytera.DataDeliveryStates, Dmr.Hytera.DataDeliveryStates.toPy <$> Dmr.Hytera.DataDeliveryStates.read⟩,
   ⟨"okdmr/kaitai/hytera/data_transmit_protocol", Hytera.DataTransmitProtocol, Dmr.Hytera.DataTransmitProtocol.toPy <$> Dmr.Hytera.DataTransmitProtocol.read⟩,
   ⟨"okdmr/kaitai/hytera/datetimestring", Hytera.Datetimestring, Dmr.Hytera.Datetimestring.toPy <$> Dmr.Hytera.Datetimestring.read⟩,
   ⟨"okdmr/kaitai/hytera/gpsdata", Hytera.Gpsdata, Dmr.Hytera.Gpsdata.toPy <$> Dmr.Hytera.Gpsdata.read⟩,
   ⟨"okdmr/kaitai/hytera/intervalstring", Hytera.Intervalstring, Dmr.Hytera.Intervalstring.toPy <$> Dmr.Hytera.Intervalstring.read⟩,
   ⟨"okdmr/kaitai/hytera/location_protocol", Hytera.LocationProtocol, Dmr.Hytera.LocationProtocol.toPy <$> Dmr.Hytera.LocationProtocol.read⟩,
   ⟨"okdmr/kaitai/hytera/radio_registration_service", Hytera.RadioRegistrationService, Dmr.Hytera.RadioRegistrationService.toPy <$> Dmr.Hytera.RadioRegistrationService.read⟩,
   ⟨"okdmr/kaitai/hytera/text_message_protocol", Hytera.TextMessageProtocol, Dmr.Hytera.TextMessageProtocol.toPy <$> Dmr.Hytera.TextMessageProtocol.read⟩,
   ⟨"okdmr/kaitai/hytera/telemetry_protocol", Hytera.TelemetryProtocol, Dmr.Hytera.TelemetryProtocol.toPy <$> Dmr.Hytera.TelemetryProtocol.read⟩,
   ⟨"okdmr/kaitai/hytera/radio_control_protocol", Hytera.RadioControlProtocol, Dmr.Hytera.RadioControlProtocol.toPy <$> Dmr.Hytera.RadioControlProtocol.read⟩,
   ⟨"okdmr/kaitai/hytera/hytera_dmr_application_protocol", Hytera.HyteraDmrApplicationProtocol, Dmr.Hytera.HyteraDmrApplicationProtocol.toPy <$> Dmr.Hytera.HyteraDmrApplicationProtocol.read⟩,
   ⟨"okdmr/kaitai/hytera/hytera_radio_network_protocol", Hytera.HyteraRadioNetworkProtocol, Dmr.Hytera.HyteraRadioNetworkProtocol.toPy <$> Dmr.Hytera.HyteraRadioNetworkProtocol.read⟩,
   ⟨"okdmr/kaitai/hytera/hytera_simple_transport_reliability_protocol", Hytera.HyteraSimpleTransportReliabilityProtocol, Dmr.Hytera.HyteraSimpleTransportReliabilityProtocol.toPy <$> Dmr.Hytera.HyteraSimpleTransportReliabilityProtocol.read⟩,
   ⟨"okdmr/kaitai/hytera/ip_site_connect_heartbeat", Hytera.IpSiteConnectHeartbeat, Dmr.Hytera.IpSiteConnectHeartbeat.toPy <$> Dmr.Hytera.IpSiteConnectHeartbeat.read⟩,
   ⟨"okdmr/kaitai/hytera/ip_site_connect_protocol", Hytera.IpSiteConnectProtocol, Dmr.Hytera.IpSiteConnectProtocol.toPy <$> Dmr.Hytera.IpSiteConnectProtocol.read⟩,
   ⟨"okdmr/kaitai/hytera/radio_id", Hytera.RadioId, Dmr.Hytera.RadioId.toPy <$> Dmr.Hytera.RadioId.read⟩,
   ⟨"okdmr/kaitai/hytera/real_time_transport_protocol", Hytera.RealTimeTransportProtocol, Dmr.Hytera.RealTimeTransportProtocol.toPy <$> Dmr.Hytera.RealTimeTransportProtocol.read⟩,
   ⟨"okdmr/kaitai/etsi/dmr_csbk", Etsi.DmrCsbk, Dmr.Etsi.DmrCsbk.toPy <$> Dmr.Etsi.DmrCsbk.read⟩,
   ⟨"okdmr/kaitai/etsi/dmr_data", Etsi.DmrData, Dmr.Etsi.DmrData.toPy <$> Dmr.Etsi.DmrData.read⟩,
   ⟨"okdmr/kaitai/etsi/dmr_data_header", Etsi.DmrDataHeader, Dmr.Etsi.DmrDataHeader.toPy <$> Dmr.Etsi.DmrDataHeader.read⟩,
   ⟨"okdmr/kaitai/etsi/dmr_ip_udp", Etsi.DmrIpUdp, Dmr.Etsi.DmrIpUdp.toPy <$> Dmr.Etsi.DmrIpUdp.read⟩,
   ⟨"okdmr/kaitai/etsi/full_link_control", Etsi.FullLinkControl, Dmr.Etsi.FullLinkControl.toPy <$> Dmr.Etsi.FullLinkControl.read⟩,
   ⟨"okdmr/kaitai/homebrew/homebrew2015", Homebrew.Homebrew2015, Dmr.Homebrew.Homebrew2015.toPy <$> Dmr.Homebrew.Homebrew2015.read⟩,
   ⟨"okdmr/kaitai/homebrew/mmdvm2020", Homebrew.Mmdvm2020, Dmr.Homebrew.Mmdvm2020.toPy <$> Dmr.Homebrew.Mmdvm2020.read⟩,
   ⟨"okdmr/kaitai/motorola/automatic_registration_service", Motorola.AutomaticRegistrationService, Dmr.Motorola.AutomaticRegistrationService.toPy <$> Dmr.Motorola.AutomaticRegistrationService.read⟩,
   ⟨"okdmr/kaitai/motorola/motorola_binary_xml", Motorola.MotorolaBinaryXml, Dmr.Motorola.MotorolaBinaryXml.toPy <$> Dmr.Motorola.MotorolaBinaryXml.read⟩,
   ⟨"okdmr/kaitai/motorola/text_message_protocol", Motorola.TextMessageProtocol, Dmr.Motorola.TextMessageProtocol.toPy <$> Dmr.Motorola.TextMessageProtocol.read⟩]

theorem fileClasses_conform : ∀ c ∈ fileClasses, ∀ (n : Nat) (sc : Scope), parse (n + 6) sc c.schema = view <$> c.read := by
  unfold fileClasses
  refine List.forall_mem_cons.2 ⟨fun n sc => (Ksy.Hytera.RadioIp_conforms (n + 5) sc).trans (view_read _ _), ?_⟩
  refine List.forall_mem_cons.2 ⟨fun n sc => (Ksy.Hytera.DataDeliveryStates_conforms (n + 4) sc).trans (view_read _ _), ?_⟩
  refine List.forall_mem_cons.2 ⟨fun n sc => (Ksy.Hytera.DataTransmitProtocol_conforms (n + 3) sc).trans (view_read _ _), ?_⟩
  refine List.forall_mem_cons.2 ⟨fun n sc => (Ksy.Hytera.Datetimestring_conforms (n + 5) sc).trans (view_read _ _), ?_⟩
  refine List.forall_mem_cons.2 ⟨fun n sc => (Ksy.Hytera.Gpsdata_conforms (n + 5) sc).trans (view_read _ _), ?_⟩
  refine List.forall_mem_cons.2 ⟨fun n sc => (Ksy.Hytera.Intervalstring_conforms (n + 5) sc).trans (view_read _ _), ?_⟩
  refine List.forall_mem_cons.2 ⟨fun n sc => (Ksy.Hytera.LocationProtocol_conforms (n + 2) sc).trans (view_read _ _), ?_⟩
  refine List.forall_mem_cons.2 ⟨fun n sc => (Ksy.Hytera.RadioRegistrationService_conforms (n + 4) sc).trans (view_read _ _), ?_⟩
  refine List.forall_mem_cons.2 ⟨fun n sc => (Ksy.Hytera.TextMessageProtocol_conforms (n + 4) sc).trans (view_read _ _), ?_⟩
  refine List.forall_mem_cons.2 ⟨fun n sc => (Ksy.Hytera.TelemetryProtocol_conforms (n + 3) sc).trans (view_read _ _), ?_⟩
  refine List.forall_mem_cons.2 ⟨fun n sc => (Ksy.Hytera.RadioControlProtocol_conforms (n + 3) sc).trans (view_read _ _), ?_⟩
  refine List.forall_mem_cons.2 ⟨fun n sc => (Ksy.Hytera.HyteraDmrApplicationProtocol_conforms (n + 1) sc).trans (view_read _ _), ?_⟩
  refine List.forall_mem_cons.2 ⟨fun n sc => (Ksy.Hytera.HyteraRadioNetworkProtocol_conforms (n + 0) sc).trans (view_read _ _), ?_⟩
  refine List.forall_mem_cons.2 ⟨fun n sc => (Ksy.Hytera.HyteraSimpleTransportReliabilityProtocol_conforms (n + 0) sc).trans (view_read _ _), ?_⟩
  refine List.forall_mem_cons.2 ⟨fun n sc => (Ksy.Hytera.IpSiteConnectHeartbeat_conforms (n + 4) sc).trans (view_read _ _), ?_⟩
  refine List.forall_mem_cons.2 ⟨fun n sc => (Ksy.Hytera.IpSiteConnectProtocol_conforms (n + 5) sc).trans (view_read _ _), ?_⟩
  refine List.forall_mem_cons.2 ⟨fun n sc => (Ksy.Hytera.RadioId_conforms (n + 5) sc).trans (view_read _ _), ?_⟩
  refine List.forall_mem_cons.2 ⟨fun n sc => (Ksy.Hytera.RealTimeTransportProtocol_conforms (n + 3) sc).trans (view_read _ _), ?_⟩
  refine List.forall_mem_cons.2 ⟨fun n sc => (Ksy.Etsi.DmrCsbk_conforms (n + 3) sc).trans (view_read _ _), ?_⟩
  refine List.forall_mem_cons.2 ⟨fun n sc => (Ksy.Etsi.DmrData_conforms (n + 5) sc).trans (view_read _ _), ?_⟩
  refine List.forall_mem_cons.2 ⟨fun n sc => (Ksy.Etsi.DmrDataHeader_conforms (n + 4) sc).trans (view_read _ _), ?_⟩
  refine List.forall_mem_cons.2 ⟨fun n sc => (Ksy.Etsi.DmrIpUdp_conforms (n + 5) sc).trans (view_read _ _), ?_⟩
  refine List.forall_mem_cons.2 ⟨fun n sc => (Ksy.Etsi.FullLinkControl_conforms (n + 4) sc).trans (view_read _ _), ?_⟩
  refine List.forall_mem_cons.2 ⟨fun n sc => (Ksy.Homebrew.Homebrew2015_conforms (n + 3) sc).trans (view_read _ _), ?_⟩
  refine List.forall_mem_cons.2 ⟨fun n sc => (Ksy.Homebrew.Mmdvm2020_conforms (n + 3) sc).trans (view_read _ _), ?_⟩
  refine List.forall_mem_cons.2 ⟨fun n sc => (Ksy.Motorola.AutomaticRegistrationService_conforms (n + 3) sc).trans (view_read _ _), ?_⟩
  refine List.forall_mem_cons.2 ⟨fun n sc => (Ksy.Motorola.MotorolaBinaryXml_conforms (n + 0) sc).trans (view_read _ _), ?_⟩
  refine List.forall_mem_cons.2 ⟨fun n sc => (Ksy.Motorola.TextMessageProtocol_conforms (n + 3) sc).trans (view_read _ _), ?_⟩
  exact fun _ h => nomatch h

/-- The types inside the files, but for those in the comment below, whose attributes depend on the object that contains
them (they are parts of the classes in `fileClasses`). -/
def innerClasses : List PyClass :=
  [⟨"okdmr/kaitai/hytera/data_transmit_protocol", Hytera.DataTransmitProtocol.DtpAnswer, Dmr.Hytera.DataTransmitProtocol.DtpAnswer.toPy <$> Dmr.Hytera.DataTransmitProtocol.DtpAnswer.read⟩,
   ⟨"okdmr/kaitai/hytera/data_transmit_protocol", Hytera.DataTransmitProtocol.DataSliceAnswer, Dmr.Hytera.DataTransmitProtocol.DataSliceAnswer.toPy <$> Dmr.Hytera.DataTransmitProtocol.DataSliceAnswer.read⟩,
   ⟨"okdmr/kaitai/hytera/data_transmit_protocol", Hytera.DataTransmitProtocol.LastDataSlice, Dmr.Hytera.DataTransmitProtocol.LastDataSlice.toPy <$> Dmr.Hytera.DataTransmitProtocol.LastDataSlice.read⟩,
   ⟨"okdmr/kaitai/hytera/data_transmit_protocol", Hytera.DataTransmitProtocol.LastDataSliceAnswer, Dmr.Hytera.DataTransmitProtocol.LastDataSliceAnswer.toPy <$> Dmr.Hytera.DataTransmitProtocol.LastDataSliceAnswer.read⟩,
   ⟨"okdmr/kaitai/hytera/location_protocol", Hytera.LocationProtocol.StandardRequest, Dmr.Hytera.LocationProtocol.StandardRequest.toPy <$> Dmr.Hytera.LocationProtocol.StandardRequest.read⟩,
   ⟨"okdmr/kaitai/hytera/location_protocol", Hytera.LocationProtocol.StandardAnswer, Dmr.Hytera.LocationProtocol.StandardAnswer.toPy <$> Dmr.Hytera.LocationProtocol.StandardAnswer.read⟩,
   ⟨"okdmr/kaitai/hytera/location_protocol", Hytera.LocationProtocol.StandardAnswerWithRssi, Dmr.Hytera.LocationProtocol.StandardAnswerWithRssi.toPy <$> Dmr.Hytera.LocationProtocol.StandardAnswerWithRssi.read⟩,
   ⟨"okdmr/kaitai/hytera/location_protocol", Hytera.LocationProtocol.EmergencyReportStopRequest, Dmr.Hytera.LocationProtocol.EmergencyReportStopRequest.toPy <$> Dmr.Hytera.LocationProtocol.EmergencyReportStopRequest.read⟩,
   ⟨"okdmr/kaitai/hytera/location_protocol", Hytera.LocationProtocol.EmergencyReportStopAnswer, Dmr.Hytera.LocationProtocol.EmergencyReportStopAnswer.toPy <$> Dmr.Hytera.LocationProtocol.EmergencyReportStopAnswer.read⟩,
   ⟨"okdmr/kaitai/hytera/location_protocol", Hytera.LocationProtocol.EmergencyReport, Dmr.Hytera.LocationProtocol.EmergencyReport.toPy <$> Dmr.Hytera.LocationProtocol.EmergencyReport.read⟩,
   ⟨"okdmr/kaitai/hytera/location_protocol", Hytera.LocationProtocol.TriggeredReportRequest, Dmr.Hytera.LocationProtocol.TriggeredReportRequest.toPy <$> Dmr.Hytera.LocationProtocol.TriggeredReportRequest.read⟩,
   ⟨"okdmr/kaitai/hytera/location_protocol", Hytera.LocationProtocol.TriggeredReportAnswer, Dmr.Hytera.LocationProtocol.TriggeredReportAnswer.toPy <$> Dmr.Hytera.LocationProtocol.TriggeredReportAnswer.read⟩,
   ⟨"okdmr/kaitai/hytera/location_protocol", Hytera.LocationProtocol.TriggeredReport, Dmr.Hytera.LocationProtocol.TriggeredReport.toPy <$> Dmr.Hytera.LocationProtocol.TriggeredReport.read⟩,
   ⟨"okdmr/kaitai/hytera/location_protocol", Hytera.LocationProtocol.TriggeredReportStopRequest, Dmr.Hytera.LocationProtocol.TriggeredReportStopRequest.toPy <$> Dmr.Hytera.LocationProtocol.TriggeredReportStopRequest.read⟩,
   ⟨"okdmr/kaitai/hytera/location_protocol", Hytera.LocationProtocol.TriggeredReportStopAnswer, Dmr.Hytera.LocationProtocol.TriggeredReportStopAnswer.toPy <$> Dmr.Hytera.LocationProtocol.TriggeredReportStopAnswer.read⟩,
   ⟨"okdmr/kaitai/hytera/location_protocol", Hytera.LocationProtocol.ConditionReportRequest, Dmr.Hytera.LocationProtocol.ConditionReportRequest.toPy <$> Dmr.Hytera.LocationProtocol.ConditionReportRequest.read⟩,
   ⟨"okdmr/kaitai/hytera/location_protocol", Hytera.LocationProtocol.ConditionReportAnswer, Dmr.Hytera.LocationProtocol.ConditionReportAnswer.toPy <$> Dmr.Hytera.LocationProtocol.ConditionReportAnswer.read⟩,
   ⟨"okdmr/kaitai/hytera/location_protocol", Hytera.LocationProtocol.ConditionReport, Dmr.Hytera.LocationProtocol.ConditionReport.toPy <$> Dmr.Hytera.LocationProtocol.ConditionReport.read⟩,
   ⟨"okdmr/kaitai/hytera/location_protocol", Hytera.LocationProtocol.ConditionReportWithRssi, Dmr.Hytera.LocationProtocol.ConditionReportWithRssi.toPy <$> Dmr.Hytera.LocationProtocol.ConditionReportWithRssi.read⟩,
   ⟨"okdmr/kaitai/hytera/location_protocol", Hytera.LocationProtocol.QuickGpsPayload, Dmr.Hytera.LocationProtocol.QuickGpsPayload.toPy <$> Dmr.Hytera.LocationProtocol.QuickGpsPayload.read⟩,
   ⟨"okdmr/kaitai/hytera/location_protocol", Hytera.LocationProtocol.ConditionQuickGpsRequest, Dmr.Hytera.LocationProtocol.ConditionQuickGpsRequest.toPy <$> Dmr.Hytera.LocationProtocol.ConditionQuickGpsRequest.read⟩,
   ⟨"okdmr/kaitai/hytera/location_protocol", Hytera.LocationProtocol.ConditionQuickGpsAnswer, Dmr.Hytera.LocationProtocol.ConditionQuickGpsAnswer.toPy <$> Dmr.Hytera.LocationProtocol.ConditionQuickGpsAnswer.read⟩,
   ⟨"okdmr/kaitai/hytera/telemetry_protocol", Hytera.TelemetryProtocol.VioExtendedStatus, Dmr.Hytera.TelemetryProtocol.VioExtendedStatus.toPy <$> Dmr.Hytera.TelemetryProtocol.VioExtendedStatus.read⟩,
   ⟨"okdmr/kaitai/hytera/telemetry_protocol", Hytera.TelemetryProtocol.StandardStatusRequest, Dmr.Hytera.TelemetryProtocol.StandardStatusRequest.toPy <$> Dmr.Hytera.TelemetryProtocol.StandardStatusRequest.read⟩,
   ⟨"okdmr/kaitai/hytera/telemetry_protocol", Hytera.TelemetryProtocol.StandardStatusReport, Dmr.Hytera.TelemetryProtocol.StandardStatusReport.toPy <$> Dmr.Hytera.TelemetryProtocol.StandardStatusReport.read⟩,
   ⟨"okdmr/kaitai/hytera/telemetry_protocol", Hytera.TelemetryProtocol.ExtendedStatusReport, Dmr.Hytera.TelemetryProtocol.ExtendedStatusReport.toPy <$> Dmr.Hytera.TelemetryProtocol.ExtendedStatusReport.read⟩,
   ⟨"okdmr/kaitai/hytera/telemetry_protocol", Hytera.TelemetryProtocol.RemoteControlRequest, Dmr.Hytera.TelemetryProtocol.RemoteControlRequest.toPy <$> Dmr.Hytera.TelemetryProtocol.RemoteControlRequest.read⟩,
   ⟨"okdmr/kaitai/hytera/telemetry_protocol", Hytera.TelemetryProtocol.RemoteControlAnswer, Dmr.Hytera.TelemetryProtocol.RemoteControlAnswer.toPy <$> Dmr.Hytera.TelemetryProtocol.RemoteControlAnswer.read⟩,
   ⟨"okdmr/kaitai/hytera/radio_control_protocol", Hytera.RadioControlProtocol.CallRequest, Dmr.Hytera.RadioControlProtocol.CallRequest.toPy <$> Dmr.Hytera.RadioControlProtocol.CallRequest.read⟩,
   ⟨"okdmr/kaitai/hytera/radio_control_protocol", Hytera.RadioControlProtocol.CallReply, Dmr.Hytera.RadioControlProtocol.CallReply.toPy <$> Dmr.Hytera.RadioControlProtocol.CallReply.read⟩,
   ⟨"okdmr/kaitai/hytera/radio_control_protocol", Hytera.RadioControlProtocol.RemoveRadioRequest, Dmr.Hytera.RadioControlProtocol.RemoveRadioRequest.toPy <$> Dmr.Hytera.RadioControlProtocol.RemoveRadioRequest.read⟩,
   ⟨"okdmr/kaitai/hytera/radio_control_protocol", Hytera.RadioControlProtocol.RemoveRadioReply, Dmr.Hytera.RadioControlProtocol.RemoveRadioReply.toPy <$> Dmr.Hytera.RadioControlProtocol.RemoveRadioReply.read⟩,
   ⟨"okdmr/kaitai/hytera/radio_control_protocol", Hytera.RadioControlProtocol.BroadcastConfiguration, Dmr.Hytera.RadioControlProtocol.BroadcastConfiguration.toPy <$> Dmr.Hytera.RadioControlProtocol.BroadcastConfiguration.read⟩,
   ⟨"okdmr/kaitai/hytera/radio_control_protocol", Hytera.RadioControlProtocol.BroadcastStatusConfigurationRequest, Dmr.Hytera.RadioControlProtocol.BroadcastStatusConfigurationRequest.toPy <$> Dmr.Hytera.RadioControlProtocol.BroadcastStatusConfigurationRequest.read⟩,
   ⟨"okdmr/kaitai/hytera/radio_control_protocol", Hytera.RadioControlProtocol.BroadcastStatusConfigurationReply, Dmr.Hytera.RadioControlProtocol.BroadcastStatusConfigurationReply.toPy <$> Dmr.Hytera.RadioControlProtocol.BroadcastStatusConfigurationReply.read⟩,
   ⟨"okdmr/kaitai/hytera/hytera_dmr_application_protocol", Hytera.HyteraDmrApplicationProtocol.UndefinedProtocol, Dmr.Hytera.HyteraDmrApplicationProtocol.UndefinedProtocol.toPy <$> Dmr.Hytera.HyteraDmrApplicationProtocol.UndefinedProtocol.read⟩,
   ⟨"okdmr/kaitai/hytera/hytera_simple_transport_reliability_protocol", Hytera.HyteraSimpleTransportReliabilityProtocol.Option, Dmr.Hytera.HyteraSimpleTransportReliabilityProtocol.Option.toPy <$> Dmr.Hytera.HyteraSimpleTransportReliabilityProtocol.Option.read⟩,
   ⟨"okdmr/kaitai/hytera/ip_site_connect_heartbeat", Hytera.IpSiteConnectHeartbeat.Keepalive, Dmr.Hytera.IpSiteConnectHeartbeat.Keepalive.toPy <$> Dmr.Hytera.IpSiteConnectHeartbeat.Keepalive.read⟩,
   ⟨"okdmr/kaitai/hytera/ip_site_connect_heartbeat", Hytera.IpSiteConnectHeartbeat.PingPong, Dmr.Hytera.IpSiteConnectHeartbeat.PingPong.toPy <$> Dmr.Hytera.IpSiteConnectHeartbeat.PingPong.read⟩,
   ⟨"okdmr/kaitai/hytera/ip_site_connect_heartbeat", Hytera.IpSiteConnectHeartbeat.Unknown, Dmr.Hytera.IpSiteConnectHeartbeat.Unknown.toPy <$> Dmr.Hytera.IpSiteConnectHeartbeat.Unknown.read⟩,
   ⟨"okdmr/kaitai/hytera/real_time_transport_protocol", Hytera.RealTimeTransportProtocol.FixedHeader, Dmr.Hytera.RealTimeTransportProtocol.FixedHeader.toPy <$> Dmr.Hytera.RealTimeTransportProtocol.FixedHeader.read⟩,
   ⟨"okdmr/kaitai/hytera/real_time_transport_protocol", Hytera.RealTimeTransportProtocol.HeaderExtension, Dmr.Hytera.RealTimeTransportProtocol.HeaderExtension.toPy <$> Dmr.Hytera.RealTimeTransportProtocol.HeaderExtension.read⟩,
   ⟨"okdmr/kaitai/etsi/dmr_csbk", Etsi.DmrCsbk.ServiceOptions, Dmr.Etsi.DmrCsbk.ServiceOptions.toPy <$> Dmr.Etsi.DmrCsbk.ServiceOptions.read⟩,
   ⟨"okdmr/kaitai/etsi/dmr_csbk", Etsi.DmrCsbk.PreambleData, Dmr.Etsi.DmrCsbk.PreambleData.toPy <$> Dmr.Etsi.DmrCsbk.PreambleData.read⟩,
   ⟨"okdmr/kaitai/etsi/dmr_csbk", Etsi.DmrCsbk.BsOutboundActivationData, Dmr.Etsi.DmrCsbk.BsOutboundActivationData.toPy <$> Dmr.Etsi.DmrCsbk.BsOutboundActivationData.read⟩,
   ⟨"okdmr/kaitai/etsi/dmr_csbk", Etsi.DmrCsbk.UnitToUnitVoiceRequestData, Dmr.Etsi.DmrCsbk.UnitToUnitVoiceRequestData.toPy <$> Dmr.Etsi.DmrCsbk.UnitToUnitVoiceRequestData.read⟩,
   ⟨"okdmr/kaitai/etsi/dmr_csbk", Etsi.DmrCsbk.UnitToUnitVoiceAnswerData, Dmr.Etsi.DmrCsbk.UnitToUnitVoiceAnswerData.toPy <$> Dmr.Etsi.DmrCsbk.UnitToUnitVoiceAnswerData.read⟩,
   ⟨"okdmr/kaitai/etsi/dmr_csbk", Etsi.DmrCsbk.NegativeAckResponseData, Dmr.Etsi.DmrCsbk.NegativeAckResponseData.toPy <$> Dmr.Etsi.DmrCsbk.NegativeAckResponseData.read⟩,
   ⟨"okdmr/kaitai/etsi/dmr_csbk", Etsi.DmrCsbk.ChannelTimingData, Dmr.Etsi.DmrCsbk.ChannelTimingData.toPy <$> Dmr.Etsi.DmrCsbk.ChannelTimingData.read⟩,
   ⟨"okdmr/kaitai/etsi/dmr_data", Etsi.DmrData.Rate34Confirmed, Dmr.Etsi.DmrData.Rate34Confirmed.toPy <$> Dmr.Etsi.DmrData.Rate34Confirmed.read⟩,
   ⟨"okdmr/kaitai/etsi/dmr_data", Etsi.DmrData.Rate34Unconfirmed, Dmr.Etsi.DmrData.Rate34Unconfirmed.toPy <$> Dmr.Etsi.DmrData.Rate34Unconfirmed.read⟩,
   ⟨"okdmr/kaitai/etsi/dmr_data", Etsi.DmrData.Rate34LastBlockConfirmed, Dmr.Etsi.DmrData.Rate34LastBlockConfirmed.toPy <$> Dmr.Etsi.DmrData.Rate34LastBlockConfirmed.read⟩,
   ⟨"okdmr/kaitai/etsi/dmr_data", Etsi.DmrData.Rate34LastBlockUnconfirmed, Dmr.Etsi.DmrData.Rate34LastBlockUnconfirmed.toPy <$> Dmr.Etsi.DmrData.Rate34LastBlockUnconfirmed.read⟩,
   ⟨"okdmr/kaitai/etsi/dmr_data", Etsi.DmrData.Rate12Confirmed, Dmr.Etsi.DmrData.Rate12Confirmed.toPy <$> Dmr.Etsi.DmrData.Rate12Confirmed.read⟩,
   ⟨"okdmr/kaitai/etsi/dmr_data", Etsi.DmrData.Rate12Unconfirmed, Dmr.Etsi.DmrData.Rate12Unconfirmed.toPy <$> Dmr.Etsi.DmrData.Rate12Unconfirmed.read⟩,
   ⟨"okdmr/kaitai/etsi/dmr_data", Etsi.DmrData.Rate12LastBlockConfirmed, Dmr.Etsi.DmrData.Rate12LastBlockConfirmed.toPy <$> Dmr.Etsi.DmrData.Rate12LastBlockConfirmed.read⟩,
   ⟨"okdmr/kaitai/etsi/dmr_data", Etsi.DmrData.Rate12LastBlockUnconfirmed, Dmr.Etsi.DmrData.Rate12LastBlockUnconfirmed.toPy <$> Dmr.Etsi.DmrData.Rate12LastBlockUnconfirmed.read⟩,
   ⟨"okdmr/kaitai/etsi/dmr_data", Etsi.DmrData.UdtLastBlock, Dmr.Etsi.DmrData.UdtLastBlock.toPy <$> Dmr.Etsi.DmrData.UdtLastBlock.read⟩,
   ⟨"okdmr/kaitai/etsi/dmr_data", Etsi.DmrData.Rate1Confirmed, Dmr.Etsi.DmrData.Rate1Confirmed.toPy <$> Dmr.Etsi.DmrData.Rate1Confirmed.read⟩,
   ⟨"okdmr/kaitai/etsi/dmr_data", Etsi.DmrData.Rate1Unconfirmed, Dmr.Etsi.DmrData.Rate1Unconfirmed.toPy <$> Dmr.Etsi.DmrData.Rate1Unconfirmed.read⟩,
   ⟨"okdmr/kaitai/etsi/dmr_data", Etsi.DmrData.Rate1LastBlockConfirmed, Dmr.Etsi.DmrData.Rate1LastBlockConfirmed.toPy <$> Dmr.Etsi.DmrData.Rate1LastBlockConfirmed.read⟩,
   ⟨"okdmr/kaitai/etsi/dmr_data", Etsi.DmrData.Rate1LastBlockUnconfirmed, Dmr.Etsi.DmrData.Rate1LastBlockUnconfirmed.toPy <$> Dmr.Etsi.DmrData.Rate1LastBlockUnconfirmed.read⟩,
   ⟨"okdmr/kaitai/etsi/dmr_data_header", Etsi.DmrDataHeader.DataHeaderUndefined, Dmr.Etsi.DmrDataHeader.DataHeaderUndefined.toPy <$> Dmr.Etsi.DmrDataHeader.DataHeaderUndefined.read⟩,
   ⟨"okdmr/kaitai/etsi/dmr_data_header", Etsi.DmrDataHeader.DataHeaderProprietary, Dmr.Etsi.DmrDataHeader.DataHeaderProprietary.toPy <$> Dmr.Etsi.DmrDataHeader.DataHeaderProprietary.read⟩,
   ⟨"okdmr/kaitai/etsi/dmr_data_header", Etsi.DmrDataHeader.DataHeaderUdt, Dmr.Etsi.DmrDataHeader.DataHeaderUdt.toPy <$> Dmr.Etsi.DmrDataHeader.DataHeaderUdt.read⟩,
   ⟨"okdmr/kaitai/etsi/dmr_data_header", Etsi.DmrDataHeader.DataHeaderResponse, Dmr.Etsi.DmrDataHeader.DataHeaderResponse.toPy <$> Dmr.Etsi.DmrDataHeader.DataHeaderResponse.read⟩,
   ⟨"okdmr/kaitai/etsi/dmr_data_header", Etsi.DmrDataHeader.DataHeaderUnconfirmed, Dmr.Etsi.DmrDataHeader.DataHeaderUnconfirmed.toPy <$> Dmr.Etsi.DmrDataHeader.DataHeaderUnconfirmed.read⟩,
   ⟨"okdmr/kaitai/etsi/dmr_data_header", Etsi.DmrDataHeader.DataHeaderConfirmed, Dmr.Etsi.DmrDataHeader.DataHeaderConfirmed.toPy <$> Dmr.Etsi.DmrDataHeader.DataHeaderConfirmed.read⟩,
   ⟨"okdmr/kaitai/etsi/dmr_data_header", Etsi.DmrDataHeader.DataHeaderShortRaw, Dmr.Etsi.DmrDataHeader.DataHeaderShortRaw.toPy <$> Dmr.Etsi.DmrDataHeader.DataHeaderShortRaw.read⟩,
   ⟨"okdmr/kaitai/etsi/dmr_data_header", Etsi.DmrDataHeader.DataHeaderShortDefined, Dmr.Etsi.DmrDataHeader.DataHeaderShortDefined.toPy <$> Dmr.Etsi.DmrDataHeader.DataHeaderShortDefined.read⟩,
   ⟨"okdmr/kaitai/etsi/dmr_data_header", Etsi.DmrDataHeader.DataHeaderShortStatusPrecoded, Dmr.Etsi.DmrDataHeader.DataHeaderShortStatusPrecoded.toPy <$> Dmr.Etsi.DmrDataHeader.DataHeaderShortStatusPrecoded.read⟩,
   ⟨"okdmr/kaitai/etsi/dmr_ip_udp", Etsi.DmrIpUdp.UdpIpv4CompressedHeader, Dmr.Etsi.DmrIpUdp.UdpIpv4CompressedHeader.toPy <$> Dmr.Etsi.DmrIpUdp.UdpIpv4CompressedHeader.read⟩,
   ⟨"okdmr/kaitai/etsi/full_link_control", Etsi.FullLinkControl.GroupVoiceChannelUser, Dmr.Etsi.FullLinkControl.GroupVoiceChannelUser.toPy <$> Dmr.Etsi.FullLinkControl.GroupVoiceChannelUser.read⟩,
   ⟨"okdmr/kaitai/etsi/full_link_control", Etsi.FullLinkControl.UnitToUnitVoiceChannelUser, Dmr.Etsi.FullLinkControl.UnitToUnitVoiceChannelUser.toPy <$> Dmr.Etsi.FullLinkControl.UnitToUnitVoiceChannelUser.read⟩,
   ⟨"okdmr/kaitai/etsi/full_link_control", Etsi.FullLinkControl.GpsInfoLcPdu, Dmr.Etsi.FullLinkControl.GpsInfoLcPdu.toPy <$> Dmr.Etsi.FullLinkControl.GpsInfoLcPdu.read⟩,
   ⟨"okdmr/kaitai/etsi/full_link_control", Etsi.FullLinkControl.TalkerAliasHeader, Dmr.Etsi.FullLinkControl.TalkerAliasHeader.toPy <$> Dmr.Etsi.FullLinkControl.TalkerAliasHeader.read⟩,
   ⟨"okdmr/kaitai/etsi/full_link_control", Etsi.FullLinkControl.TalkerAliasContinuation, Dmr.Etsi.FullLinkControl.TalkerAliasContinuation.toPy <$> Dmr.Etsi.FullLinkControl.TalkerAliasContinuation.read⟩,
   ⟨"okdmr/kaitai/homebrew/homebrew2015", Homebrew.Homebrew2015.TypeDmrData, Dmr.Homebrew.Homebrew2015.TypeDmrData.toPy <$> Dmr.Homebrew.Homebrew2015.TypeDmrData.read⟩,
   ⟨"okdmr/kaitai/homebrew/homebrew2015", Homebrew.Homebrew2015.TypeRepeaterLoginRequest, Dmr.Homebrew.Homebrew2015.TypeRepeaterLoginRequest.toPy <$> Dmr.Homebrew.Homebrew2015.TypeRepeaterLoginRequest.read⟩,
   ⟨"okdmr/kaitai/homebrew/homebrew2015", Homebrew.Homebrew2015.TypeMasterPing, Dmr.Homebrew.Homebrew2015.TypeMasterPing.toPy <$> Dmr.Homebrew.Homebrew2015.TypeMasterPing.read⟩,
   ⟨"okdmr/kaitai/homebrew/homebrew2015", Homebrew.Homebrew2015.TypeRepeaterPong, Dmr.Homebrew.Homebrew2015.TypeRepeaterPong.toPy <$> Dmr.Homebrew.Homebrew2015.TypeRepeaterPong.read⟩,
   ⟨"okdmr/kaitai/homebrew/homebrew2015", Homebrew.Homebrew2015.TypeMasterClosing, Dmr.Homebrew.Homebrew2015.TypeMasterClosing.toPy <$> Dmr.Homebrew.Homebrew2015.TypeMasterClosing.read⟩,
   ⟨"okdmr/kaitai/homebrew/homebrew2015", Homebrew.Homebrew2015.TypeMasterNotAccept, Dmr.Homebrew.Homebrew2015.TypeMasterNotAccept.toPy <$> Dmr.Homebrew.Homebrew2015.TypeMasterNotAccept.read⟩,
   ⟨"okdmr/kaitai/homebrew/homebrew2015", Homebrew.Homebrew2015.TypeMasterRepeaterAck, Dmr.Homebrew.Homebrew2015.TypeMasterRepeaterAck.toPy <$> Dmr.Homebrew.Homebrew2015.TypeMasterRepeaterAck.read⟩,
   ⟨"okdmr/kaitai/homebrew/homebrew2015", Homebrew.Homebrew2015.TypeRepeaterLoginResponse, Dmr.Homebrew.Homebrew2015.TypeRepeaterLoginResponse.toPy <$> Dmr.Homebrew.Homebrew2015.TypeRepeaterLoginResponse.read⟩,
   ⟨"okdmr/kaitai/homebrew/homebrew2015", Homebrew.Homebrew2015.TypeRepeaterClosing, Dmr.Homebrew.Homebrew2015.TypeRepeaterClosing.toPy <$> Dmr.Homebrew.Homebrew2015.TypeRepeaterClosing.read⟩,
   ⟨"okdmr/kaitai/homebrew/homebrew2015", Homebrew.Homebrew2015.TypeRepeaterConfiguration, Dmr.Homebrew.Homebrew2015.TypeRepeaterConfiguration.toPy <$> Dmr.Homebrew.Homebrew2015.TypeRepeaterConfiguration.read⟩,
   ⟨"okdmr/kaitai/homebrew/homebrew2015", Homebrew.Homebrew2015.TypeRepeaterOptions, Dmr.Homebrew.Homebrew2015.TypeRepeaterOptions.toPy <$> Dmr.Homebrew.Homebrew2015.TypeRepeaterOptions.read⟩,
   ⟨"okdmr/kaitai/homebrew/mmdvm2020", Homebrew.Mmdvm2020.TypeUnknown, Dmr.Homebrew.Mmdvm2020.TypeUnknown.toPy <$> Dmr.Homebrew.Mmdvm2020.TypeUnknown.read⟩,
   ⟨"okdmr/kaitai/homebrew/mmdvm2020", Homebrew.Mmdvm2020.TypeTalkerAlias, Dmr.Homebrew.Mmdvm2020.TypeTalkerAlias.toPy <$> Dmr.Homebrew.Mmdvm2020.TypeTalkerAlias.read⟩,
   ⟨"okdmr/kaitai/homebrew/mmdvm2020", Homebrew.Mmdvm2020.TypeDmrData, Dmr.Homebrew.Mmdvm2020.TypeDmrData.toPy <$> Dmr.Homebrew.Mmdvm2020.TypeDmrData.read⟩,
   ⟨"okdmr/kaitai/homebrew/mmdvm2020", Homebrew.Mmdvm2020.TypeRepeaterLoginRequest, Dmr.Homebrew.Mmdvm2020.TypeRepeaterLoginRequest.toPy <$> Dmr.Homebrew.Mmdvm2020.TypeRepeaterLoginRequest.read⟩,
   ⟨"okdmr/kaitai/homebrew/mmdvm2020", Homebrew.Mmdvm2020.TypeRepeaterPing, Dmr.Homebrew.Mmdvm2020.TypeRepeaterPing.toPy <$> Dmr.Homebrew.Mmdvm2020.TypeRepeaterPing.read⟩,
   ⟨"okdmr/kaitai/homebrew/mmdvm2020", Homebrew.Mmdvm2020.TypeMasterPong, Dmr.Homebrew.Mmdvm2020.TypeMasterPong.toPy <$> Dmr.Homebrew.Mmdvm2020.TypeMasterPong.read⟩,
   ⟨"okdmr/kaitai/homebrew/mmdvm2020", Homebrew.Mmdvm2020.TypeMasterClosing, Dmr.Homebrew.Mmdvm2020.TypeMasterClosing.toPy <$> Dmr.Homebrew.Mmdvm2020.TypeMasterClosing.read⟩,
   ⟨"okdmr/kaitai/homebrew/mmdvm2020", Homebrew.Mmdvm2020.TypeMasterNotAccept, Dmr.Homebrew.Mmdvm2020.TypeMasterNotAccept.toPy <$> Dmr.Homebrew.Mmdvm2020.TypeMasterNotAccept.read⟩,
   ⟨"okdmr/kaitai/homebrew/mmdvm2020", Homebrew.Mmdvm2020.TypeMasterRepeaterAck, Dmr.Homebrew.Mmdvm2020.TypeMasterRepeaterAck.toPy <$> Dmr.Homebrew.Mmdvm2020.TypeMasterRepeaterAck.read⟩,
   ⟨"okdmr/kaitai/homebrew/mmdvm2020", Homebrew.Mmdvm2020.TypeRepeaterLoginResponse, Dmr.Homebrew.Mmdvm2020.TypeRepeaterLoginResponse.toPy <$> Dmr.Homebrew.Mmdvm2020.TypeRepeaterLoginResponse.read⟩,
   ⟨"okdmr/kaitai/homebrew/mmdvm2020", Homebrew.Mmdvm2020.TypeRepeaterClosing, Dmr.Homebrew.Mmdvm2020.TypeRepeaterClosing.toPy <$> Dmr.Homebrew.Mmdvm2020.TypeRepeaterClosing.read⟩,
   ⟨"okdmr/kaitai/homebrew/mmdvm2020", Homebrew.Mmdvm2020.TypeRepeaterConfiguration, Dmr.Homebrew.Mmdvm2020.TypeRepeaterConfiguration.toPy <$> Dmr.Homebrew.Mmdvm2020.TypeRepeaterConfiguration.read⟩,
   ⟨"okdmr/kaitai/homebrew/mmdvm2020", Homebrew.Mmdvm2020.TypeRepeaterOptions, Dmr.Homebrew.Mmdvm2020.TypeRepeaterOptions.toPy <$> Dmr.Homebrew.Mmdvm2020.TypeRepeaterOptions.read⟩,
   ⟨"okdmr/kaitai/homebrew/mmdvm2020", Homebrew.Mmdvm2020.TypeRadioPosition, Dmr.Homebrew.Mmdvm2020.TypeRadioPosition.toPy <$> Dmr.Homebrew.Mmdvm2020.TypeRadioPosition.read⟩,
   ⟨"okdmr/kaitai/homebrew/mmdvm2020", Homebrew.Mmdvm2020.TypeRepeaterBeacon, Dmr.Homebrew.Mmdvm2020.TypeRepeaterBeacon.toPy <$> Dmr.Homebrew.Mmdvm2020.TypeRepeaterBeacon.read⟩,
   ⟨"okdmr/kaitai/motorola/automatic_registration_service", Motorola.AutomaticRegistrationService.MessageHeaderBits, Dmr.Motorola.AutomaticRegistrationService.MessageHeaderBits.toPy <$> Dmr.Motorola.AutomaticRegistrationService.MessageHeaderBits.read⟩,
   ⟨"okdmr/kaitai/motorola/automatic_registration_service", Motorola.AutomaticRegistrationService.DeviceRegistrationMessageHeader, Dmr.Motorola.AutomaticRegistrationService.DeviceRegistrationMessageHeader.toPy <$> Dmr.Motorola.AutomaticRegistrationService.DeviceRegistrationMessageHeader.read⟩,
   ⟨"okdmr/kaitai/motorola/automatic_registration_service", Motorola.AutomaticRegistrationService.DeviceRegistrationAcknowledgementHeader, Dmr.Motorola.AutomaticRegistrationService.DeviceRegistrationAcknowledgementHeader.toPy <$> Dmr.Motorola.AutomaticRegistrationService.DeviceRegistrationAcknowledgementHeader.read⟩,
   ⟨"okdmr/kaitai/motorola/automatic_registration_service", Motorola.AutomaticRegistrationService.DeviceRegistrationAcknowledgementFailureReason, Dmr.Motorola.AutomaticRegistrationService.DeviceRegistrationAcknowledgementFailureReason.toPy <$> Dmr.Motorola.AutomaticRegistrationService.DeviceRegistrationAcknowledgementFailureReason.read⟩,
   ⟨"okdmr/kaitai/motorola/automatic_registration_service", Motorola.AutomaticRegistrationService.DeviceDeregistrationMessage, Dmr.Motorola.AutomaticRegistrationService.DeviceDeregistrationMessage.toPy <$> Dmr.Motorola.AutomaticRegistrationService.DeviceDeregistrationMessage.read⟩,
   ⟨"okdmr/kaitai/motorola/automatic_registration_service", Motorola.AutomaticRegistrationService.ArsQueryMessage, Dmr.Motorola.AutomaticRegistrationService.ArsQueryMessage.toPy <$> Dmr.Motorola.AutomaticRegistrationService.ArsQueryMessage.read⟩,
   ⟨"okdmr/kaitai/motorola/motorola_binary_xml", Motorola.MotorolaBinaryXml.Uintvar, Dmr.Motorola.MotorolaBinaryXml.Uintvar.toPy <$> Dmr.Motorola.MotorolaBinaryXml.Uintvar.read⟩,
   ⟨"okdmr/kaitai/motorola/motorola_binary_xml", Motorola.MotorolaBinaryXml.Sintvar, Dmr.Motorola.MotorolaBinaryXml.Sintvar.toPy <$> Dmr.Motorola.MotorolaBinaryXml.Sintvar.read⟩,
   ⟨"okdmr/kaitai/motorola/motorola_binary_xml", Motorola.MotorolaBinaryXml.Ufloatvar, Dmr.Motorola.MotorolaBinaryXml.Ufloatvar.toPy <$> Dmr.Motorola.MotorolaBinaryXml.Ufloatvar.read⟩,
   ⟨"okdmr/kaitai/motorola/motorola_binary_xml", Motorola.MotorolaBinaryXml.Sfloatvar, Dmr.Motorola.MotorolaBinaryXml.Sfloatvar.toPy <$> Dmr.Motorola.MotorolaBinaryXml.Sfloatvar.read⟩,
   ⟨"okdmr/kaitai/motorola/motorola_binary_xml", Motorola.MotorolaBinaryXml.OpaqueElementValue, Dmr.Motorola.MotorolaBinaryXml.OpaqueElementValue.toPy <$> Dmr.Motorola.MotorolaBinaryXml.OpaqueElementValue.read⟩,
   ⟨"okdmr/kaitai/motorola/motorola_binary_xml", Motorola.MotorolaBinaryXml.Opaque1byteValue, Dmr.Motorola.MotorolaBinaryXml.Opaque1byteValue.toPy <$> Dmr.Motorola.MotorolaBinaryXml.Opaque1byteValue.read⟩,
   ⟨"okdmr/kaitai/motorola/motorola_binary_xml", Motorola.MotorolaBinaryXml.Opaque2byteValue, Dmr.Motorola.MotorolaBinaryXml.Opaque2byteValue.toPy <$> Dmr.Motorola.MotorolaBinaryXml.Opaque2byteValue.read⟩,
   ⟨"okdmr/kaitai/motorola/motorola_binary_xml", Motorola.MotorolaBinaryXml.Opaque3byteValue, Dmr.Motorola.MotorolaBinaryXml.Opaque3byteValue.toPy <$> Dmr.Motorola.MotorolaBinaryXml.Opaque3byteValue.read⟩,
   ⟨"okdmr/kaitai/motorola/motorola_binary_xml", Motorola.MotorolaBinaryXml.Opaque4byteValue, Dmr.Motorola.MotorolaBinaryXml.Opaque4byteValue.toPy <$> Dmr.Motorola.MotorolaBinaryXml.Opaque4byteValue.read⟩,
   ⟨"okdmr/kaitai/motorola/motorola_binary_xml", Motorola.MotorolaBinaryXml.Opaque5byteValue, Dmr.Motorola.MotorolaBinaryXml.Opaque5byteValue.toPy <$> Dmr.Motorola.MotorolaBinaryXml.Opaque5byteValue.read⟩,
   ⟨"okdmr/kaitai/motorola/motorola_binary_xml", Motorola.MotorolaBinaryXml.ConstantDataTableReference, Dmr.Motorola.MotorolaBinaryXml.ConstantDataTableReference.toPy <$> Dmr.Motorola.MotorolaBinaryXml.ConstantDataTableReference.read⟩,
   ⟨"okdmr/kaitai/motorola/motorola_binary_xml", Motorola.MotorolaBinaryXml.LrrpElement, Dmr.Motorola.MotorolaBinaryXml.LrrpElement.toPy <$> Dmr.Motorola.MotorolaBinaryXml.LrrpElement.read⟩,
   ⟨"okdmr/kaitai/motorola/motorola_binary_xml", Motorola.MotorolaBinaryXml.LrrpImmediateRequestNcdt, Dmr.Motorola.MotorolaBinaryXml.LrrpImmediateRequestNcdt.toPy <$> Dmr.Motorola.MotorolaBinaryXml.LrrpImmediateRequestNcdt.read⟩,
   ⟨"okdmr/kaitai/motorola/motorola_binary_xml", Motorola.MotorolaBinaryXml.MbxmlDocument, Dmr.Motorola.MotorolaBinaryXml.MbxmlDocument.toPy <$> Dmr.Motorola.MotorolaBinaryXml.MbxmlDocument.read⟩,
   ⟨"okdmr/kaitai/motorola/text_message_protocol", Motorola.TextMessageProtocol.MessageHeaderBits, Dmr.Motorola.TextMessageProtocol.MessageHeaderBits.toPy <$> Dmr.Motorola.TextMessageProtocol.MessageHeaderBits.read⟩,
   ⟨"okdmr/kaitai/motorola/text_message_protocol", Motorola.TextMessageProtocol.TmsServiceAvailabilityHeader, Dmr.Motorola.TextMessageProtocol.TmsServiceAvailabilityHeader.toPy <$> Dmr.Motorola.TextMessageProtocol.TmsServiceAvailabilityHeader.read⟩,
   ⟨"okdmr/kaitai/motorola/text_message_protocol", Motorola.TextMessageProtocol.TmsServiceAvailabilityAcknowledgement, Dmr.Motorola.TextMessageProtocol.TmsServiceAvailabilityAcknowledgement.toPy <$> Dmr.Motorola.TextMessageProtocol.TmsServiceAvailabilityAcknowledgement.read⟩,
   ⟨"okdmr/kaitai/motorola/text_message_protocol", Motorola.TextMessageProtocol.TmsAcknowledgementHeaderSequenceNumber, Dmr.Motorola.TextMessageProtocol.TmsAcknowledgementHeaderSequenceNumber.toPy <$> Dmr.Motorola.TextMessageProtocol.TmsAcknowledgementHeaderSequenceNumber.read⟩,
   ⟨"okdmr/kaitai/motorola/text_message_protocol", Motorola.TextMessageProtocol.TextMessageHeaderSequenceAndEncoding, Dmr.Motorola.TextMessageProtocol.TextMessageHeaderSequenceAndEncoding.toPy <$> Dmr.Motorola.TextMessageProtocol.TextMessageHeaderSequenceAndEncoding.read⟩]

theorem innerClasses_conform : ∀ c ∈ innerClasses, ∀ (n : Nat) (sc : Scope), parse (n + 6) sc c.schema = view <$> c.read := by
  unfold innerClasses
  refine List.forall_mem_cons.2 ⟨fun n sc => (Ksy.Hytera.DataTransmitProtocol_DtpAnswer_conforms (n + 4) sc).trans (view_read _ _), ?_⟩
  refine List.forall_mem_cons.2 ⟨fun n sc => (Ksy.Hytera.DataTransmitProtocol_DataSliceAnswer_conforms (n + 4) sc).trans (view_read _ _), ?_⟩
  refine List.forall_mem_cons.2 ⟨fun n sc => (Ksy.Hytera.DataTransmitProtocol_LastDataSlice_conforms (n + 4) sc).trans (view_read _ _), ?_⟩
  refine List.forall_mem_cons.2 ⟨fun n sc => (Ksy.Hytera.DataTransmitProtocol_LastDataSliceAnswer_conforms (n + 4) sc).trans (view_read _ _), ?_⟩
  refine List.forall_mem_cons.2 ⟨fun n sc => (Ksy.Hytera.LocationProtocol_StandardRequest_conforms (n + 4) sc).trans (view_read _ _), ?_⟩
  refine List.forall_mem_cons.2 ⟨fun n sc => (Ksy.Hytera.LocationProtocol_StandardAnswer_conforms (n + 4) sc).trans (view_read _ _), ?_⟩
  refine List.forall_mem_cons.2 ⟨fun n sc => (Ksy.Hytera.LocationProtocol_StandardAnswerWithRssi_conforms (n + 4) sc).trans (view_read _ _), ?_⟩
  refine List.forall_mem_cons.2 ⟨fun n sc => (Ksy.Hytera.LocationProtocol_EmergencyReportStopRequest_conforms (n + 4) sc).trans (view_read _ _), ?_⟩
  refine List.forall_mem_cons.2 ⟨fun n sc => (Ksy.Hytera.LocationProtocol_EmergencyReportStopAnswer_conforms (n + 4) sc).trans (view_read _ _), ?_⟩
  refine List.forall_mem_cons.2 ⟨fun n sc => (Ksy.Hytera.LocationProtocol_EmergencyReport_conforms (n + 4) sc).trans (view_read _ _), ?_⟩
  refine List.forall_mem_cons.2 ⟨fun n sc => (Ksy.Hytera.LocationProtocol_TriggeredReportRequest_conforms (n + 4) sc).trans (view_read _ _), ?_⟩
  refine List.forall_mem_cons.2 ⟨fun n sc => (Ksy.Hytera.LocationProtocol_TriggeredReportAnswer_conforms (n + 4) sc).trans (view_read _ _), ?_⟩
  refine List.forall_mem_cons.2 ⟨fun n sc => (Ksy.Hytera.LocationProtocol_TriggeredReport_conforms (n + 4) sc).trans (view_read _ _), ?_⟩
  refine List.forall_mem_cons.2 ⟨fun n sc => (Ksy.Hytera.LocationProtocol_TriggeredReportStopRequest_conforms (n + 4) sc).trans (view_read _ _), ?_⟩
  refine List.forall_mem_cons.2 ⟨fun n sc => (Ksy.Hytera.LocationProtocol_TriggeredReportStopAnswer_conforms (n + 4) sc).trans (view_read _ _), ?_⟩
  refine List.forall_mem_cons.2 ⟨fun n sc => (Ksy.Hytera.LocationProtocol_ConditionReportRequest_conforms (n + 4) sc).trans (view_read _ _), ?_⟩
  refine List.forall_mem_cons.2 ⟨fun n sc => (Ksy.Hytera.LocationProtocol_ConditionReportAnswer_conforms (n + 4) sc).trans (view_read _ _), ?_⟩
  refine List.forall_mem_cons.2 ⟨fun n sc => (Ksy.Hytera.LocationProtocol_ConditionReport_conforms (n + 4) sc).trans (view_read _ _), ?_⟩
  refine List.forall_mem_cons.2 ⟨fun n sc => (Ksy.Hytera.LocationProtocol_ConditionReportWithRssi_conforms (n + 4) sc).trans (view_read _ _), ?_⟩
  refine List.forall_mem_cons.2 ⟨fun n sc => (Ksy.Hytera.LocationProtocol_QuickGpsPayload_conforms (n + 4) sc).trans (view_read _ _), ?_⟩
  refine List.forall_mem_cons.2 ⟨fun n sc => (Ksy.Hytera.LocationProtocol_ConditionQuickGpsRequest_conforms (n + 3) sc).trans (view_read _ _), ?_⟩
  refine List.forall_mem_cons.2 ⟨fun n sc => (Ksy.Hytera.LocationProtocol_ConditionQuickGpsAnswer_conforms (n + 4) sc).trans (view_read _ _), ?_⟩
  refine List.forall_mem_cons.2 ⟨fun n sc => (Ksy.Hytera.TelemetryProtocol_VioExtendedStatus_conforms (n + 5) sc).trans (view_read _ _), ?_⟩
  refine List.forall_mem_cons.2 ⟨fun n sc => (Ksy.Hytera.TelemetryProtocol_StandardStatusRequest_conforms (n + 4) sc).trans (view_read _ _), ?_⟩
  refine List.forall_mem_cons.2 ⟨fun n sc => (Ksy.Hytera.TelemetryProtocol_StandardStatusReport_conforms (n + 4) sc).trans (view_read _ _), ?_⟩
  refine List.forall_mem_cons.2 ⟨fun n sc => (Ksy.Hytera.TelemetryProtocol_ExtendedStatusReport_conforms (n + 4) sc).trans (view_read _ _), ?_⟩
  refine List.forall_mem_cons.2 ⟨fun n sc => (Ksy.Hytera.TelemetryProtocol_RemoteControlRequest_conforms (n + 4) sc).trans (view_read _ _), ?_⟩
  refine List.forall_mem_cons.2 ⟨fun n sc => (Ksy.Hytera.TelemetryProtocol_RemoteControlAnswer_conforms (n + 4) sc).trans (view_read _ _), ?_⟩
  refine List.forall_mem_cons.2 ⟨fun n sc => (Ksy.Hytera.RadioControlProtocol_CallRequest_conforms (n + 5) sc).trans (view_read _ _), ?_⟩
  refine List.forall_mem_cons.2 ⟨fun n sc => (Ksy.Hytera.RadioControlProtocol_CallReply_conforms (n + 5) sc).trans (view_read _ _), ?_⟩
  refine List.forall_mem_cons.2 ⟨fun n sc => (Ksy.Hytera.RadioControlProtocol_RemoveRadioRequest_conforms (n + 5) sc).trans (view_read _ _), ?_⟩
  refine List.forall_mem_cons.2 ⟨fun n sc => (Ksy.Hytera.RadioControlProtocol_RemoveRadioReply_conforms (n + 5) sc).trans (view_read _ _), ?_⟩
  refine List.forall_mem_cons.2 ⟨fun n sc => (Ksy.Hytera.RadioControlProtocol_BroadcastConfiguration_conforms (n + 5) sc).trans (view_read _ _), ?_⟩
  refine List.forall_mem_cons.2 ⟨fun n sc => (Ksy.Hytera.RadioControlProtocol_BroadcastStatusConfigurationRequest_conforms (n + 4) sc).trans (view_read _ _), ?_⟩
  refine List.forall_mem_cons.2 ⟨fun n sc => (Ksy.Hytera.RadioControlProtocol_BroadcastStatusConfigurationReply_conforms (n + 5) sc).trans (view_read _ _), ?_⟩
  refine List.forall_mem_cons.2 ⟨fun n sc => (Ksy.Hytera.HyteraDmrApplicationProtocol_UndefinedProtocol_conforms (n + 5) sc).trans (view_read _ _), ?_⟩
  refine List.forall_mem_cons.2 ⟨fun n sc => (Ksy.Hytera.HyteraSimpleTransportReliabilityProtocol_Option_conforms (n + 5) sc).trans (view_read _ _), ?_⟩
  refine List.forall_mem_cons.2 ⟨fun n sc => (Ksy.Hytera.IpSiteConnectHeartbeat_Keepalive_conforms (n + 5) sc).trans (view_read _ _), ?_⟩
  refine List.forall_mem_cons.2 ⟨fun n sc => (Ksy.Hytera.IpSiteConnectHeartbeat_PingPong_conforms (n + 5) sc).trans (view_read _ _), ?_⟩
  refine List.forall_mem_cons.2 ⟨fun n sc => (Ksy.Hytera.IpSiteConnectHeartbeat_Unknown_conforms (n + 5) sc).trans (view_read _ _), ?_⟩
  refine List.forall_mem_cons.2 ⟨fun n sc => (Ksy.Hytera.RealTimeTransportProtocol_FixedHeader_conforms (n + 5) sc).trans (view_read _ _), ?_⟩
  refine List.forall_mem_cons.2 ⟨fun n sc => (Ksy.Hytera.RealTimeTransportProtocol_HeaderExtension_conforms (n + 4) sc).trans (view_read _ _), ?_⟩
  refine List.forall_mem_cons.2 ⟨fun n sc => (Ksy.Etsi.DmrCsbk_ServiceOptions_conforms (n + 5) sc).trans (view_read _ _), ?_⟩
  refine List.forall_mem_cons.2 ⟨fun n sc => (Ksy.Etsi.DmrCsbk_PreambleData_conforms (n + 5) sc).trans (view_read _ _), ?_⟩
  refine List.forall_mem_cons.2 ⟨fun n sc => (Ksy.Etsi.DmrCsbk_BsOutboundActivationData_conforms (n + 5) sc).trans (view_read _ _), ?_⟩
  refine List.forall_mem_cons.2 ⟨fun n sc => (Ksy.Etsi.DmrCsbk_UnitToUnitVoiceRequestData_conforms (n + 4) sc).trans (view_read _ _), ?_⟩
  refine List.forall_mem_cons.2 ⟨fun n sc => (Ksy.Etsi.DmrCsbk_UnitToUnitVoiceAnswerData_conforms (n + 4) sc).trans (view_read _ _), ?_⟩
  refine List.forall_mem_cons.2 ⟨fun n sc => (Ksy.Etsi.DmrCsbk_NegativeAckResponseData_conforms (n + 5) sc).trans (view_read _ _), ?_⟩
  refine List.forall_mem_cons.2 ⟨fun n sc => (Ksy.Etsi.DmrCsbk_ChannelTimingData_conforms (n + 5) sc).trans (view_read _ _), ?_⟩
  refine List.forall_mem_cons.2 ⟨fun n sc => (Ksy.Etsi.DmrData_Rate34Confirmed_conforms (n + 5) sc).trans (view_read _ _), ?_⟩
  refine List.forall_mem_cons.2 ⟨fun n sc => (Ksy.Etsi.DmrData_Rate34Unconfirmed_conforms (n + 5) sc).trans (view_read _ _), ?_⟩
  refine List.forall_mem_cons.2 ⟨fun n sc => (Ksy.Etsi.DmrData_Rate34LastBlockConfirmed_conforms (n + 5) sc).trans (view_read _ _), ?_⟩
  refine List.forall_mem_cons.2 ⟨fun n sc => (Ksy.Etsi.DmrData_Rate34LastBlockUnconfirmed_conforms (n + 5) sc).trans (view_read _ _), ?_⟩
  refine List.forall_mem_cons.2 ⟨fun n sc => (Ksy.Etsi.DmrData_Rate12Confirmed_conforms (n + 5) sc).trans (view_read _ _), ?_⟩
  refine List.forall_mem_cons.2 ⟨fun n sc => (Ksy.Etsi.DmrData_Rate12Unconfirmed_conforms (n + 5) sc).trans (view_read _ _), ?_⟩
  refine List.forall_mem_cons.2 ⟨fun n sc => (Ksy.Etsi.DmrData_Rate12LastBlockConfirmed_conforms (n + 5) sc).trans (view_read _ _), ?_⟩
  refine List.forall_mem_cons.2 ⟨fun n sc => (Ksy.Etsi.DmrData_Rate12LastBlockUnconfirmed_conforms (n + 5) sc).trans (view_read _ _), ?_⟩
  refine List.forall_mem_cons.2 ⟨fun n sc => (Ksy.Etsi.DmrData_UdtLastBlock_conforms (n + 5) sc).trans (view_read _ _), ?_⟩
  refine List.forall_mem_cons.2 ⟨fun n sc => (Ksy.Etsi.DmrData_Rate1Confirmed_conforms (n + 5) sc).trans (view_read _ _), ?_⟩
  refine List.forall_mem_cons.2 ⟨fun n sc => (Ksy.Etsi.DmrData_Rate1Unconfirmed_conforms (n + 5) sc).trans (view_read _ _), ?_⟩
  refine List.forall_mem_cons.2 ⟨fun n sc => (Ksy.Etsi.DmrData_Rate1LastBlockConfirmed_conforms (n + 5) sc).trans (view_read _ _), ?_⟩
  refine List.forall_mem_cons.2 ⟨fun n sc => (Ksy.Etsi.DmrData_Rate1LastBlockUnconfirmed_conforms (n + 5) sc).trans (view_read _ _), ?_⟩
  refine List.forall_mem_cons.2 ⟨fun n sc => (Ksy.Etsi.DmrDataHeader_DataHeaderUndefined_conforms (n + 5) sc).trans (view_read _ _), ?_⟩
  refine List.forall_mem_cons.2 ⟨fun n sc => (Ksy.Etsi.DmrDataHeader_DataHeaderProprietary_conforms (n + 5) sc).trans (view_read _ _), ?_⟩
  refine List.forall_mem_cons.2 ⟨fun n sc => (Ksy.Etsi.DmrDataHeader_DataHeaderUdt_conforms (n + 5) sc).trans (view_read _ _), ?_⟩
  refine List.forall_mem_cons.2 ⟨fun n sc => (Ksy.Etsi.DmrDataHeader_DataHeaderResponse_conforms (n + 5) sc).trans (view_read _ _), ?_⟩
  refine List.forall_mem_cons.2 ⟨fun n sc => (Ksy.Etsi.DmrDataHeader_DataHeaderUnconfirmed_conforms (n + 5) sc).trans (view_read _ _), ?_⟩
  refine List.forall_mem_cons.2 ⟨fun n sc => (Ksy.Etsi.DmrDataHeader_DataHeaderConfirmed_conforms (n + 5) sc).trans (view_read _ _), ?_⟩
  refine List.forall_mem_cons.2 ⟨fun n sc => (Ksy.Etsi.DmrDataHeader_DataHeaderShortRaw_conforms (n + 5) sc).trans (view_read _ _), ?_⟩
  refine List.forall_mem_cons.2 ⟨fun n sc => (Ksy.Etsi.DmrDataHeader_DataHeaderShortDefined_conforms (n + 5) sc).trans (view_read _ _), ?_⟩
  refine List.forall_mem_cons.2 ⟨fun n sc => (Ksy.Etsi.DmrDataHeader_DataHeaderShortStatusPrecoded_conforms (n + 5) sc).trans (view_read _ _), ?_⟩
  refine List.forall_mem_cons.2 ⟨fun n sc => (Ksy.Etsi.DmrIpUdp_UdpIpv4CompressedHeader_conforms (n + 5) sc).trans (view_read _ _), ?_⟩
  refine List.forall_mem_cons.2 ⟨fun n sc => (Ksy.Etsi.FullLinkControl_GroupVoiceChannelUser_conforms (n + 5) sc).trans (view_read _ _), ?_⟩
  refine List.forall_mem_cons.2 ⟨fun n sc => (Ksy.Etsi.FullLinkControl_UnitToUnitVoiceChannelUser_conforms (n + 5) sc).trans (view_read _ _), ?_⟩
  refine List.forall_mem_cons.2 ⟨fun n sc => (Ksy.Etsi.FullLinkControl_GpsInfoLcPdu_conforms (n + 5) sc).trans (view_read _ _), ?_⟩
  refine List.forall_mem_cons.2 ⟨fun n sc => (Ksy.Etsi.FullLinkControl_TalkerAliasHeader_conforms (n + 5) sc).trans (view_read _ _), ?_⟩
  refine List.forall_mem_cons.2 ⟨fun n sc => (Ksy.Etsi.FullLinkControl_TalkerAliasContinuation_conforms (n + 5) sc).trans (view_read _ _), ?_⟩
  refine List.forall_mem_cons.2 ⟨fun n sc => (Ksy.Homebrew.Homebrew2015_TypeDmrData_conforms (n + 5) sc).trans (view_read _ _), ?_⟩
  refine List.forall_mem_cons.2 ⟨fun n sc => (Ksy.Homebrew.Homebrew2015_TypeRepeaterLoginRequest_conforms (n + 5) sc).trans (view_read _ _), ?_⟩
  refine List.forall_mem_cons.2 ⟨fun n sc => (Ksy.Homebrew.Homebrew2015_TypeMasterPing_conforms (n + 5) sc).trans (view_read _ _), ?_⟩
  refine List.forall_mem_cons.2 ⟨fun n sc => (Ksy.Homebrew.Homebrew2015_TypeRepeaterPong_conforms (n + 5) sc).trans (view_read _ _), ?_⟩
  refine List.forall_mem_cons.2 ⟨fun n sc => (Ksy.Homebrew.Homebrew2015_TypeMasterClosing_conforms (n + 5) sc).trans (view_read _ _), ?_⟩
  refine List.forall_mem_cons.2 ⟨fun n sc => (Ksy.Homebrew.Homebrew2015_TypeMasterNotAccept_conforms (n + 5) sc).trans (view_read _ _), ?_⟩
  refine List.forall_mem_cons.2 ⟨fun n sc => (Ksy.Homebrew.Homebrew2015_TypeMasterRepeaterAck_conforms (n + 5) sc).trans (view_read _ _), ?_⟩
  refine List.forall_mem_cons.2 ⟨fun n sc => (Ksy.Homebrew.Homebrew2015_TypeRepeaterLoginResponse_conforms (n + 5) sc).trans (view_read _ _), ?_⟩
  refine List.forall_mem_cons.2 ⟨fun n sc => (Ksy.Homebrew.Homebrew2015_TypeRepeaterClosing_conforms (n + 5) sc).trans (view_read _ _), ?_⟩
  refine List.forall_mem_cons.2 ⟨fun n sc => (Ksy.Homebrew.Homebrew2015_TypeRepeaterConfiguration_conforms (n + 5) sc).trans (view_read _ _), ?_⟩
  refine List.forall_mem_cons.2 ⟨fun n sc => (Ksy.Homebrew.Homebrew2015_TypeRepeaterOptions_conforms (n + 5) sc).trans (view_read _ _), ?_⟩
  refine List.forall_mem_cons.2 ⟨fun n sc => (Ksy.Homebrew.Mmdvm2020_TypeUnknown_conforms (n + 5) sc).trans (view_read _ _), ?_⟩
  refine List.forall_mem_cons.2 ⟨fun n sc => (Ksy.Homebrew.Mmdvm2020_TypeTalkerAlias_conforms (n + 5) sc).trans (view_read _ _), ?_⟩
  refine List.forall_mem_cons.2 ⟨fun n sc => (Ksy.Homebrew.Mmdvm2020_TypeDmrData_conforms (n + 5) sc).trans (view_read _ _), ?_⟩
  refine List.forall_mem_cons.2 ⟨fun n sc => (Ksy.Homebrew.Mmdvm2020_TypeRepeaterLoginRequest_conforms (n + 5) sc).trans (view_read _ _), ?_⟩
  refine List.forall_mem_cons.2 ⟨fun n sc => (Ksy.Homebrew.Mmdvm2020_TypeRepeaterPing_conforms (n + 5) sc).trans (view_read _ _), ?_⟩
  refine List.forall_mem_cons.2 ⟨fun n sc => (Ksy.Homebrew.Mmdvm2020_TypeMasterPong_conforms (n + 5) sc).trans (view_read _ _), ?_⟩
  refine List.forall_mem_cons.2 ⟨fun n sc => (Ksy.Homebrew.Mmdvm2020_TypeMasterClosing_conforms (n + 5) sc).trans (view_read _ _), ?_⟩
  refine List.forall_mem_cons.2 ⟨fun n sc => (Ksy.Homebrew.Mmdvm2020_TypeMasterNotAccept_conforms (n + 5) sc).trans (view_read _ _), ?_⟩
  refine List.forall_mem_cons.2 ⟨fun n sc => (Ksy.Homebrew.Mmdvm2020_TypeMasterRepeaterAck_conforms (n + 5) sc).trans (view_read _ _), ?_⟩
  refine List.forall_mem_cons.2 ⟨fun n sc => (Ksy.Homebrew.Mmdvm2020_TypeRepeaterLoginResponse_conforms (n + 5) sc).trans (view_read _ _), ?_⟩
  refine List.forall_mem_cons.2 ⟨fun n sc => (Ksy.Homebrew.Mmdvm2020_TypeRepeaterClosing_conforms (n + 5) sc).trans (view_read _ _), ?_⟩
  refine List.forall_mem_cons.2 ⟨fun n sc => (Ksy.Homebrew.Mmdvm2020_TypeRepeaterConfiguration_conforms (n + 5) sc).trans (view_read _ _), ?_⟩
  refine List.forall_mem_cons.2 ⟨fun n sc => (Ksy.Homebrew.Mmdvm2020_TypeRepeaterOptions_conforms (n + 5) sc).trans (view_read _ _), ?_⟩
  refine List.forall_mem_cons.2 ⟨fun n sc => (Ksy.Homebrew.Mmdvm2020_TypeRadioPosition_conforms (n + 5) sc).trans (view_read _ _), ?_⟩
  refine List.forall_mem_cons.2 ⟨fun n sc => (Ksy.Homebrew.Mmdvm2020_TypeRepeaterBeacon_conforms (n + 5) sc).trans (view_read _ _), ?_⟩
  refine List.forall_mem_cons.2 ⟨fun n sc => (Ksy.Motorola.AutomaticRegistrationService_MessageHeaderBits_conforms (n + 5) sc).trans (view_read _ _), ?_⟩
  refine List.forall_mem_cons.2 ⟨fun n sc => (Ksy.Motorola.AutomaticRegistrationService_DeviceRegistrationMessageHeader_conforms (n + 5) sc).trans (view_read _ _), ?_⟩
  refine List.forall_mem_cons.2 ⟨fun n sc => (Ksy.Motorola.AutomaticRegistrationService_DeviceRegistrationAcknowledgementHeader_conforms (n + 5) sc).trans (view_read _ _), ?_⟩
  refine List.forall_mem_cons.2 ⟨fun n sc => (Ksy.Motorola.AutomaticRegistrationService_DeviceRegistrationAcknowledgementFailureReason_conforms (n + 5) sc).trans (view_read _ _), ?_⟩
  refine List.forall_mem_cons.2 ⟨fun n sc => (Ksy.Motorola.AutomaticRegistrationService_DeviceDeregistrationMessage_conforms (n + 5) sc).trans (view_read _ _), ?_⟩
  refine List.forall_mem_cons.2 ⟨fun n sc => (Ksy.Motorola.AutomaticRegistrationService_ArsQueryMessage_conforms (n + 5) sc).trans (view_read _ _), ?_⟩
  refine List.forall_mem_cons.2 ⟨fun n sc => (Ksy.Motorola.MotorolaBinaryXml_Uintvar_conforms (n + 5) sc).trans (view_read _ _), ?_⟩
  refine List.forall_mem_cons.2 ⟨fun n sc => (Ksy.Motorola.MotorolaBinaryXml_Sintvar_conforms (n + 5) sc).trans (view_read _ _), ?_⟩
  refine List.forall_mem_cons.2 ⟨fun n sc => (Ksy.Motorola.MotorolaBinaryXml_Ufloatvar_conforms (n + 4) sc).trans (view_read _ _), ?_⟩
  refine List.forall_mem_cons.2 ⟨fun n sc => (Ksy.Motorola.MotorolaBinaryXml_Sfloatvar_conforms (n + 4) sc).trans (view_read _ _), ?_⟩
  refine List.forall_mem_cons.2 ⟨fun n sc => (Ksy.Motorola.MotorolaBinaryXml_OpaqueElementValue_conforms (n + 5) sc).trans (view_read _ _), ?_⟩
  refine List.forall_mem_cons.2 ⟨fun n sc => (Ksy.Motorola.MotorolaBinaryXml_Opaque1byteValue_conforms (n + 5) sc).trans (view_read _ _), ?_⟩
  refine List.forall_mem_cons.2 ⟨fun n sc => (Ksy.Motorola.MotorolaBinaryXml_Opaque2byteValue_conforms (n + 5) sc).trans (view_read _ _), ?_⟩
  refine List.forall_mem_cons.2 ⟨fun n sc => (Ksy.Motorola.MotorolaBinaryXml_Opaque3byteValue_conforms (n + 5) sc).trans (view_read _ _), ?_⟩
  refine List.forall_mem_cons.2 ⟨fun n sc => (Ksy.Motorola.MotorolaBinaryXml_Opaque4byteValue_conforms (n + 5) sc).trans (view_read _ _), ?_⟩
  refine List.forall_mem_cons.2 ⟨fun n sc => (Ksy.Motorola.MotorolaBinaryXml_Opaque5byteValue_conforms (n + 5) sc).trans (view_read _ _), ?_⟩
  refine List.forall_mem_cons.2 ⟨fun n sc => (Ksy.Motorola.MotorolaBinaryXml_ConstantDataTableReference_conforms (n + 4) sc).trans (view_read _ _), ?_⟩
  refine List.forall_mem_cons.2 ⟨fun n sc => (Ksy.Motorola.MotorolaBinaryXml_LrrpElement_conforms (n + 3) sc).trans (view_read _ _), ?_⟩
  refine List.forall_mem_cons.2 ⟨fun n sc => (Ksy.Motorola.MotorolaBinaryXml_LrrpImmediateRequestNcdt_conforms (n + 2) sc).trans (view_read _ _), ?_⟩
  refine List.forall_mem_cons.2 ⟨fun n sc => (Ksy.Motorola.MotorolaBinaryXml_MbxmlDocument_conforms (n + 1) sc).trans (view_read _ _), ?_⟩
  refine List.forall_mem_cons.2 ⟨fun n sc => (Ksy.Motorola.TextMessageProtocol_MessageHeaderBits_conforms (n + 5) sc).trans (view_read _ _), ?_⟩
  refine List.forall_mem_cons.2 ⟨fun n sc => (Ksy.Motorola.TextMessageProtocol_TmsServiceAvailabilityHeader_conforms (n + 5) sc).trans (view_read _ _), ?_⟩
  refine List.forall_mem_cons.2 ⟨fun n sc => (Ksy.Motorola.TextMessageProtocol_TmsServiceAvailabilityAcknowledgement_conforms (n + 5) sc).trans (view_read _ _), ?_⟩
  refine List.forall_mem_cons.2 ⟨fun n sc => (Ksy.Motorola.TextMessageProtocol_TmsAcknowledgementHeaderSequenceNumber_conforms (n + 5) sc).trans (view_read _ _), ?_⟩
  refine List.forall_mem_cons.2 ⟨fun n sc => (Ksy.Motorola.TextMessageProtocol_TextMessageHeaderSequenceAndEncoding_conforms (n + 5) sc).trans (view_read _ _), ?_⟩
  exact fun _ h => nomatch h

/-
Types that depend on their context: Hytera.DataTransmitProtocol.DtpRequest, Hytera.DataTransmitProtocol.DataSliceTransmit, Hytera.RadioControlProtocol.GenericData, Hytera.RadioControlProtocol.RadioIdentificationReply, Homebrew.Homebrew2015.TypeRepeaterConfigurationOrClosing, Homebrew.Mmdvm2020.TypeRepeaterConfigurationOrClosing, Motorola.AutomaticRegistrationService.DeviceRegistrationMessage, Motorola.AutomaticRegistrationService.AcknowledgementMessage, Motorola.TextMessageProtocol.TmsServiceAvailability, Motorola.TextMessageProtocol.TmsAcknowledgement, Motorola.TextMessageProtocol.TextMessage.
-/

end Dmr.Ksy
