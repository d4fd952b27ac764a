import Verif.Enum
import Verif.Model.Hytera.RadioIp
import Verif.Model.Hytera.RadioId
import Verif.Model.Hytera.Gpsdata
import Verif.Model.Hytera.Datetimestring
import Verif.Model.Hytera.Intervalstring
import Verif.Model.Hytera.DataDeliveryStates
import Verif.Model.Hytera.DataTransmitProtocol
import Verif.Model.Hytera.LocationProtocol
import Verif.Model.Hytera.RadioControlProtocol
import Verif.Model.Hytera.RadioRegistrationService
import Verif.Model.Hytera.TelemetryProtocol
import Verif.Model.Hytera.TextMessageProtocol
import Verif.Model.Hytera.HyteraDmrApplicationProtocol
import Verif.Model.Hytera.HyteraRadioNetworkProtocol
import Verif.Model.Hytera.HyteraSimpleTransportReliabilityProtocol
import Verif.Model.Hytera.IpSiteConnectHeartbeat
import Verif.Model.Hytera.IpSiteConnectProtocol
import Verif.Model.Hytera.RealTimeTransportProtocol
import Verif.Model.Etsi.DmrCsbk
import Verif.Model.Etsi.DmrData
import Verif.Model.Etsi.DmrDataHeader
import Verif.Model.Etsi.DmrIpUdp
import Verif.Model.Etsi.FullLinkControl
import Verif.Model.Homebrew.Homebrew2015
import Verif.Model.Homebrew.Mmdvm2020
import Verif.Model.Motorola.AutomaticRegistrationService
import Verif.Model.Motorola.MotorolaBinaryXml
import Verif.Model.Motorola.TextMessageProtocol
/-
Generated by tools/mkenums.py: every `class ...(Enum)` of the library has different member values.
-/

set_option linter.unnecessarySeqFocus false

namespace Dmr

instance : LawfulEnum Hytera.DataDeliveryStates.StateTypes where
  complete := by intro e; cases e <;> simp [PyEnum.all]
  distinct := by decide

instance : LawfulEnum Hytera.DataDeliveryStates.Results where
  complete := by intro e; cases e <;> simp [PyEnum.all]
  distinct := by decide

instance : LawfulEnum Hytera.DataTransmitProtocol.ServiceTypes where
  complete := by intro e; cases e <;> simp [PyEnum.all]
  distinct := by decide

instance : LawfulEnum Hytera.DataTransmitProtocol.ServiceSpecificTypes where
  complete := by intro e; cases e <;> simp [PyEnum.all]
  distinct := by decide

instance : LawfulEnum Hytera.DataTransmitProtocol.Results where
  complete := by intro e; cases e <;> simp [PyEnum.all]
  distinct := by decide

instance : LawfulEnum Hytera.LocationProtocol.CmdTypes where
  complete := by intro e; cases e <;> simp [PyEnum.all]
  distinct := by decide

instance : LawfulEnum Hytera.LocationProtocol.LpSpecificTypes where
  complete := by intro e; cases e <;> simp [PyEnum.all]
  distinct := by decide

instance : LawfulEnum Hytera.LocationProtocol.LpGeneralTypes where
  complete := by intro e; cases e <;> simp [PyEnum.all]
  distinct := by decide

instance : LawfulEnum Hytera.LocationProtocol.TriggerTypes where
  complete := by intro e; cases e <;> simp [PyEnum.all]
  distinct := by decide

instance : LawfulEnum Hytera.LocationProtocol.ResultCodes where
  complete := by intro e; cases e <;> simp [PyEnum.all]
  distinct := by decide

instance : LawfulEnum Hytera.RadioControlProtocol.ServiceTypes where
  complete := by intro e; cases e <;> simp [PyEnum.all]
  distinct := by decide

instance : LawfulEnum Hytera.RadioControlProtocol.CallTypes where
  complete := by intro e; cases e <;> simp [PyEnum.all]
  distinct := by decide

instance : LawfulEnum Hytera.RadioControlProtocol.ReplyResults where
  complete := by intro e; cases e <;> simp [PyEnum.all]
  distinct := by decide

instance : LawfulEnum Hytera.RadioRegistrationService.RrsTypes where
  complete := by intro e; cases e <;> simp [PyEnum.all]
  distinct := by decide

instance : LawfulEnum Hytera.TelemetryProtocol.ServiceTypes where
  complete := by intro e; cases e <;> simp [PyEnum.all]
  distinct := by decide

instance : LawfulEnum Hytera.TelemetryProtocol.ResultTypes where
  complete := by intro e; cases e <;> simp [PyEnum.all]
  distinct := by decide

instance : LawfulEnum Hytera.TelemetryProtocol.CallTypes where
  complete := by intro e; cases e <;> simp [PyEnum.all]
  distinct := by decide

instance : LawfulEnum Hytera.TelemetryProtocol.OperationTypes where
  complete := by intro e; cases e <;> simp [PyEnum.all]
  distinct := by decide

instance : LawfulEnum Hytera.TelemetryProtocol.PcFlagTypes where
  complete := by intro e; cases e <;> simp [PyEnum.all]
  distinct := by decide

instance : LawfulEnum Hytera.TelemetryProtocol.ServiceSpecificTypes where
  complete := by intro e; cases e <;> simp [PyEnum.all]
  distinct := by decide

instance : LawfulEnum Hytera.TelemetryProtocol.ControlResultTypes where
  complete := by intro e; cases e <;> simp [PyEnum.all]
  distinct := by decide

instance : LawfulEnum Hytera.TextMessageProtocol.AckFlags where
  complete := by intro e; cases e <;> simp [PyEnum.all]
  distinct := by decide

instance : LawfulEnum Hytera.TextMessageProtocol.OptionFlags where
  complete := by intro e; cases e <;> simp [PyEnum.all]
  distinct := by decide

instance : LawfulEnum Hytera.TextMessageProtocol.ServiceTypes where
  complete := by intro e; cases e <;> simp [PyEnum.all]
  distinct := by decide

instance : LawfulEnum Hytera.TextMessageProtocol.ResultCodes where
  complete := by intro e; cases e <;> simp [PyEnum.all]
  distinct := by decide

instance : LawfulEnum Hytera.HyteraDmrApplicationProtocol.MessageHeaderTypes where
  complete := by intro e; cases e <;> simp [PyEnum.all]
  distinct := by decide

instance : LawfulEnum Hytera.HyteraRadioNetworkProtocol.Opcodes where
  complete := by intro e; cases e <;> simp [PyEnum.all]
  distinct := by decide

instance : LawfulEnum Hytera.HyteraSimpleTransportReliabilityProtocol.OptionCommands where
  complete := by intro e; cases e <;> simp [PyEnum.all]
  distinct := by decide

instance : LawfulEnum Hytera.IpSiteConnectProtocol.PacketTypes where
  complete := by intro e; cases e <;> simp [PyEnum.all]
  distinct := by decide

instance : LawfulEnum Hytera.IpSiteConnectProtocol.FrameTypes where
  complete := by intro e; cases e <;> simp [PyEnum.all]
  distinct := by decide

instance : LawfulEnum Hytera.IpSiteConnectProtocol.CallTypes where
  complete := by intro e; cases e <;> simp [PyEnum.all]
  distinct := by decide

instance : LawfulEnum Hytera.IpSiteConnectProtocol.SlotTypes where
  complete := by intro e; cases e <;> simp [PyEnum.all]
  distinct := by decide

instance : LawfulEnum Hytera.IpSiteConnectProtocol.Timeslots where
  complete := by intro e; cases e <;> simp [PyEnum.all]
  distinct := by decide

instance : LawfulEnum Hytera.RealTimeTransportProtocol.RtpPayloadTypes where
  complete := by intro e; cases e <;> simp [PyEnum.all]
  distinct := by decide

instance : LawfulEnum Hytera.RealTimeTransportProtocol.CallTypes where
  complete := by intro e; cases e <;> simp [PyEnum.all]
  distinct := by decide

instance : LawfulEnum Etsi.DmrCsbk.CsbkoTypes where
  complete := by intro e; cases e <;> simp [PyEnum.all]
  distinct := by decide

instance : LawfulEnum Etsi.DmrCsbk.CsbkDataOrCsbk where
  complete := by intro e; cases e <;> simp [PyEnum.all]
  distinct := by decide

instance : LawfulEnum Etsi.DmrCsbk.CsbkGroupOrIndividual where
  complete := by intro e; cases e <;> simp [PyEnum.all]
  distinct := by decide

instance : LawfulEnum Etsi.DmrCsbk.AnswerResponse where
  complete := by intro e; cases e <;> simp [PyEnum.all]
  distinct := by decide

instance : LawfulEnum Etsi.DmrDataHeader.UdtFormats where
  complete := by intro e; cases e <;> simp [PyEnum.all]
  distinct := by decide

instance : LawfulEnum Etsi.DmrDataHeader.CsbkMbcUdtOpcodes where
  complete := by intro e; cases e <;> simp [PyEnum.all]
  distinct := by decide

instance : LawfulEnum Etsi.DmrDataHeader.DataPacketFormats where
  complete := by intro e; cases e <;> simp [PyEnum.all]
  distinct := by decide

instance : LawfulEnum Etsi.DmrDataHeader.SapIdentifiers where
  complete := by intro e; cases e <;> simp [PyEnum.all]
  distinct := by decide

instance : LawfulEnum Etsi.DmrDataHeader.DefinedDataFormats where
  complete := by intro e; cases e <;> simp [PyEnum.all]
  distinct := by decide

instance : LawfulEnum Etsi.DmrDataHeader.ResponsePacketClasses where
  complete := by intro e; cases e <;> simp [PyEnum.all]
  distinct := by decide

instance : LawfulEnum Etsi.DmrIpUdp.SourceIpAddressIds where
  complete := by intro e; cases e <;> simp [PyEnum.all]
  distinct := by decide

instance : LawfulEnum Etsi.DmrIpUdp.DestinationIpAddressIds where
  complete := by intro e; cases e <;> simp [PyEnum.all]
  distinct := by decide

instance : LawfulEnum Etsi.DmrIpUdp.UdpPortIds where
  complete := by intro e; cases e <;> simp [PyEnum.all]
  distinct := by decide

instance : LawfulEnum Etsi.FullLinkControl.Flcos where
  complete := by intro e; cases e <;> simp [PyEnum.all]
  distinct := by decide

instance : LawfulEnum Etsi.FullLinkControl.PositionErrors where
  complete := by intro e; cases e <;> simp [PyEnum.all]
  distinct := by decide

instance : LawfulEnum Etsi.FullLinkControl.TalkerDataFormats where
  complete := by intro e; cases e <;> simp [PyEnum.all]
  distinct := by decide

instance : LawfulEnum Etsi.FullLinkControl.FeatureSetIds where
  complete := by intro e; cases e <;> simp [PyEnum.all]
  distinct := by decide

instance : LawfulEnum Homebrew.Homebrew2015.Timeslots where
  complete := by intro e; cases e <;> simp [PyEnum.all]
  distinct := by decide

instance : LawfulEnum Homebrew.Homebrew2015.CallTypes where
  complete := by intro e; cases e <;> simp [PyEnum.all]
  distinct := by decide

instance : LawfulEnum Homebrew.Homebrew2015.FrameTypes where
  complete := by intro e; cases e <;> simp [PyEnum.all]
  distinct := by decide

instance : LawfulEnum Homebrew.Mmdvm2020.TalkerAliasTypes where
  complete := by intro e; cases e <;> simp [PyEnum.all]
  distinct := by decide

instance : LawfulEnum Homebrew.Mmdvm2020.FrameTypes where
  complete := by intro e; cases e <;> simp [PyEnum.all]
  distinct := by decide

instance : LawfulEnum Homebrew.Mmdvm2020.CallTypes where
  complete := by intro e; cases e <;> simp [PyEnum.all]
  distinct := by decide

instance : LawfulEnum Homebrew.Mmdvm2020.PositionErrors where
  complete := by intro e; cases e <;> simp [PyEnum.all]
  distinct := by decide

instance : LawfulEnum Homebrew.Mmdvm2020.Timeslots where
  complete := by intro e; cases e <;> simp [PyEnum.all]
  distinct := by decide

instance : LawfulEnum Motorola.AutomaticRegistrationService.RegistrationEvents where
  complete := by intro e; cases e <;> simp [PyEnum.all]
  distinct := by decide

instance : LawfulEnum Motorola.AutomaticRegistrationService.FailureReasons where
  complete := by intro e; cases e <;> simp [PyEnum.all]
  distinct := by decide

instance : LawfulEnum Motorola.MotorolaBinaryXml.Docids where
  complete := by intro e; cases e <;> simp [PyEnum.all]
  distinct := by decide

instance : LawfulEnum Motorola.MotorolaBinaryXml.LrrpElements where
  complete := by intro e; cases e <;> simp [PyEnum.all]
  distinct := by decide

instance : LawfulEnum Motorola.TextMessageProtocol.TmsServiceCapability where
  complete := by intro e; cases e <;> simp [PyEnum.all]
  distinct := by decide

/-- An enumeration class. -/
structure EnumClass where
  E : Type
  [inst : PyEnum E]

/-- Every enumeration class of the library (okdmr/kaitai/*/*.py, all `class ...(Enum)`). -/
def libraryEnums : List EnumClass :=
  [⟨Hytera.DataDeliveryStates.StateTypes⟩,
   ⟨Hytera.DataDeliveryStates.Results⟩,
   ⟨Hytera.DataTransmitProtocol.ServiceTypes⟩,
   ⟨Hytera.DataTransmitProtocol.ServiceSpecificTypes⟩,
   ⟨Hytera.DataTransmitProtocol.Results⟩,
   ⟨Hytera.LocationProtocol.CmdTypes⟩,
   ⟨Hytera.LocationProtocol.LpSpecificTypes⟩,
   ⟨Hytera.LocationProtocol.LpGeneralTypes⟩,
   ⟨Hytera.LocationProtocol.TriggerTypes⟩,
   ⟨Hytera.LocationProtocol.ResultCodes⟩,
   ⟨Hytera.RadioControlProtocol.ServiceTypes⟩,
   ⟨Hytera.RadioControlProtocol.CallTypes⟩,
   ⟨Hytera.RadioControlProtocol.ReplyResults⟩,
   ⟨Hytera.RadioRegistrationService.RrsTypes⟩,
   ⟨Hytera.TelemetryProtocol.ServiceTypes⟩,
   ⟨Hytera.TelemetryProtocol.ResultTypes⟩,
   ⟨Hytera.TelemetryProtocol.CallTypes⟩,
   ⟨Hytera.TelemetryProtocol.OperationTypes⟩,
   ⟨Hytera.TelemetryProtocol.PcFlagTypes⟩,
   ⟨Hytera.TelemetryProtocol.ServiceSpecificTypes⟩,
   ⟨Hytera.TelemetryProtocol.ControlResultTypes⟩,
   ⟨Hytera.TextMessageProtocol.AckFlags⟩,
   ⟨Hytera.TextMessageProtocol.OptionFlags⟩,
   ⟨Hytera.TextMessageProtocol.ServiceTypes⟩,
   ⟨Hytera.TextMessageProtocol.ResultCodes⟩,
   ⟨Hytera.HyteraDmrApplicationProtocol.MessageHeaderTypes⟩,
   ⟨Hytera.HyteraRadioNetworkProtocol.Opcodes⟩,
   ⟨Hytera.HyteraSimpleTransportReliabilityProtocol.OptionCommands⟩,
   ⟨Hytera.IpSiteConnectProtocol.PacketTypes⟩,
   ⟨Hytera.IpSiteConnectProtocol.FrameTypes⟩,
   ⟨Hytera.IpSiteConnectProtocol.CallTypes⟩,
   ⟨Hytera.IpSiteConnectProtocol.SlotTypes⟩,
   ⟨Hytera.IpSiteConnectProtocol.Timeslots⟩,
   ⟨Hytera.RealTimeTransportProtocol.RtpPayloadTypes⟩,
   ⟨Hytera.RealTimeTransportProtocol.CallTypes⟩,
   ⟨Etsi.DmrCsbk.CsbkoTypes⟩,
   ⟨Etsi.DmrCsbk.CsbkDataOrCsbk⟩,
   ⟨Etsi.DmrCsbk.CsbkGroupOrIndividual⟩,
   ⟨Etsi.DmrCsbk.AnswerResponse⟩,
   ⟨Etsi.DmrDataHeader.UdtFormats⟩,
   ⟨Etsi.DmrDataHeader.CsbkMbcUdtOpcodes⟩,
   ⟨Etsi.DmrDataHeader.DataPacketFormats⟩,
   ⟨Etsi.DmrDataHeader.SapIdentifiers⟩,
   ⟨Etsi.DmrDataHeader.DefinedDataFormats⟩,
   ⟨Etsi.DmrDataHeader.ResponsePacketClasses⟩,
   ⟨Etsi.DmrIpUdp.SourceIpAddressIds⟩,
   ⟨Etsi.DmrIpUdp.DestinationIpAddressIds⟩,
   ⟨Etsi.DmrIpUdp.UdpPortIds⟩,
   ⟨Etsi.FullLinkControl.Flcos⟩,
   ⟨Etsi.FullLinkControl.PositionErrors⟩,
   ⟨Etsi.FullLinkControl.TalkerDataFormats⟩,
   ⟨Etsi.FullLinkControl.FeatureSetIds⟩,
   ⟨Homebrew.Homebrew2015.Timeslots⟩,
   ⟨Homebrew.Homebrew2015.CallTypes⟩,
   ⟨Homebrew.Homebrew2015.FrameTypes⟩,
   ⟨Homebrew.Mmdvm2020.TalkerAliasTypes⟩,
   ⟨Homebrew.Mmdvm2020.FrameTypes⟩,
   ⟨Homebrew.Mmdvm2020.CallTypes⟩,
   ⟨Homebrew.Mmdvm2020.PositionErrors⟩,
   ⟨Homebrew.Mmdvm2020.Timeslots⟩,
   ⟨Motorola.AutomaticRegistrationService.RegistrationEvents⟩,
   ⟨Motorola.AutomaticRegistrationService.FailureReasons⟩,
   ⟨Motorola.MotorolaBinaryXml.Docids⟩,
   ⟨Motorola.MotorolaBinaryXml.LrrpElements⟩,
   ⟨Motorola.TextMessageProtocol.TmsServiceCapability⟩]

theorem libraryEnums_lawful : ∀ c ∈ libraryEnums, @LawfulEnum c.E c.inst := by
  intro c hc
  simp only [libraryEnums, List.mem_cons, List.not_mem_nil, or_false] at hc
  rcases hc with rfl | rfl | rfl | rfl | rfl | rfl | rfl | rfl | rfl | rfl | rfl | rfl | rfl | rfl | rfl | rfl | rfl | rfl | rfl | rfl | rfl | rfl | rfl | rfl | rfl | rfl | rfl | rfl | rfl | rfl | rfl | rfl | rfl | rfl | rfl | rfl | rfl | rfl | rfl | rfl | rfl | rfl | rfl | rfl | rfl | rfl | rfl | rfl | rfl | rfl | rfl | rfl | rfl | rfl | rfl | rfl | rfl | rfl | rfl | rfl | rfl | rfl | rfl | rfl | rfl <;> infer_instance

end Dmr
