import Verif.Errors
import Verif.Layout.HyteraFrame
import Verif.Layout.EtsiVar
import Verif.Layout.HomebrewVar
import Verif.Layout.MotorolaVar
/-
Which exceptions each message can raise (generated by tools/mkerrs.py from the layout specifications).
-/

set_option linter.unusedVariables false
set_option maxRecDepth 4000

namespace Dmr

open Dmr.Hytera in
theorem Hytera.Datetimestring.spec_errs (b : Bytes) (q : Nat) : Errs [.EOFError, .UnicodeDecodeError] (Hytera.Datetimestring.spec b q) := by
  unfold Hytera.Datetimestring.spec
  only_errs []

open Dmr.Hytera in
theorem Hytera.Intervalstring.spec_errs (b : Bytes) (q : Nat) : Errs [.EOFError, .UnicodeDecodeError] (Hytera.Intervalstring.spec b q) := by
  unfold Hytera.Intervalstring.spec
  only_errs []

open Dmr.Hytera in
theorem Hytera.DataTransmitProtocol.DtpRequest.spec_errs (message_length : Nat) (b : Bytes) (q : Nat) : Errs [.EOFError, .UnicodeDecodeError, .ValueError] (Hytera.DataTransmitProtocol.DtpRequest.spec message_length b q) := by
  unfold Hytera.DataTransmitProtocol.DtpRequest.spec
  only_errs []

open Dmr.Hytera in
theorem Hytera.DataTransmitProtocol.DataSliceTransmit.spec_errs (message_length : Nat) (b : Bytes) (q : Nat) : Errs [.EOFError, .ValueError] (Hytera.DataTransmitProtocol.DataSliceTransmit.spec message_length b q) := by
  unfold Hytera.DataTransmitProtocol.DataSliceTransmit.spec
  only_errs []

open Dmr.Hytera in
theorem Hytera.DataTransmitProtocol.bodySpec_errs (service_specific_type : Nat) (message_length : Nat) (b : Bytes) (q : Nat) : Errs [.EOFError, .UnicodeDecodeError, .ValueError] (Hytera.DataTransmitProtocol.bodySpec service_specific_type message_length b q) := by
  unfold Hytera.DataTransmitProtocol.bodySpec
  only_errs [Hytera.DataTransmitProtocol.DtpRequest.spec_errs _ _ _, Hytera.DataTransmitProtocol.DataSliceTransmit.spec_errs _ _ _]

open Dmr.Hytera in
theorem Hytera.DataTransmitProtocol.spec_errs (b : Bytes) (q : Nat) : Errs [.EOFError, .UnicodeDecodeError, .ValueError] (Hytera.DataTransmitProtocol.spec b q) := by
  unfold Hytera.DataTransmitProtocol.spec
  only_errs [Hytera.DataTransmitProtocol.bodySpec_errs _ _ _ _]

open Dmr.Hytera in
theorem Hytera.LocationProtocol.ConditionReportRequest.spec_errs (b : Bytes) (q : Nat) : Errs [.EOFError, .UnicodeDecodeError] (Hytera.LocationProtocol.ConditionReportRequest.spec b q) := by
  unfold Hytera.LocationProtocol.ConditionReportRequest.spec
  only_errs []

open Dmr.Hytera in
theorem Hytera.LocationProtocol.QuickGpsPayload.spec_errs (b : Bytes) (q : Nat) : Errs [.EOFError, .UnicodeDecodeError] (Hytera.LocationProtocol.QuickGpsPayload.spec b q) := by
  unfold Hytera.LocationProtocol.QuickGpsPayload.spec
  only_errs []

open Dmr.Hytera in
theorem Hytera.LocationProtocol.ConditionQuickGpsRequest.spec_errs (b : Bytes) (q : Nat) : Errs [.EOFError, .UnicodeDecodeError] (Hytera.LocationProtocol.ConditionQuickGpsRequest.spec b q) := by
  unfold Hytera.LocationProtocol.ConditionQuickGpsRequest.spec
  only_errs [Hytera.LocationProtocol.QuickGpsPayload.spec_errs _ _]

open Dmr.Hytera in
theorem Hytera.LocationProtocol.TriggeredReportRequest.spec_errs (b : Bytes) (q : Nat) : Errs [.EOFError, .UnicodeDecodeError] (Hytera.LocationProtocol.TriggeredReportRequest.spec b q) := by
  unfold Hytera.LocationProtocol.TriggeredReportRequest.spec
  only_errs []

open Dmr.Hytera in
theorem Hytera.LocationProtocol.TriggeredReport.spec_errs (b : Bytes) (q : Nat) : Errs [.EOFError, .UnicodeDecodeError] (Hytera.LocationProtocol.TriggeredReport.spec b q) := by
  unfold Hytera.LocationProtocol.TriggeredReport.spec
  only_errs []

open Dmr.Hytera in
theorem Hytera.LocationProtocol.bodySpec_errs (opcode : Nat) (b : Bytes) (q : Nat) : Errs [.EOFError, .UnicodeDecodeError] (Hytera.LocationProtocol.bodySpec opcode b q) := by
  unfold Hytera.LocationProtocol.bodySpec
  only_errs [Hytera.LocationProtocol.ConditionQuickGpsRequest.spec_errs _ _, Hytera.LocationProtocol.TriggeredReport.spec_errs _ _, Hytera.LocationProtocol.ConditionReportRequest.spec_errs _ _, Hytera.LocationProtocol.TriggeredReportRequest.spec_errs _ _]

open Dmr.Hytera in
theorem Hytera.LocationProtocol.spec_errs (b : Bytes) (q : Nat) : Errs [.EOFError, .UnicodeDecodeError] (Hytera.LocationProtocol.spec b q) := by
  unfold Hytera.LocationProtocol.spec
  only_errs [Hytera.LocationProtocol.bodySpec_errs _ _ _]

open Dmr.Hytera in
theorem Hytera.RadioControlProtocol.BroadcastStatusConfigurationRequest.spec_errs (b : Bytes) (q : Nat) : Errs [.EOFError] (Hytera.RadioControlProtocol.BroadcastStatusConfigurationRequest.spec b q) := by
  unfold Hytera.RadioControlProtocol.BroadcastStatusConfigurationRequest.spec
  only_errs []

open Dmr.Hytera in
theorem Hytera.RadioControlProtocol.RadioIdentificationReply.spec_errs (message_length : Nat) (b : Bytes) (q : Nat) : Errs [.EOFError, .UnicodeDecodeError] (Hytera.RadioControlProtocol.RadioIdentificationReply.spec message_length b q) := by
  unfold Hytera.RadioControlProtocol.RadioIdentificationReply.spec
  only_errs []

open Dmr.Hytera in
theorem Hytera.RadioControlProtocol.bodySpec_errs (service_type : Nat) (message_length : Nat) (b : Bytes) (q : Nat) : Errs [.EOFError, .UnicodeDecodeError] (Hytera.RadioControlProtocol.bodySpec service_type message_length b q) := by
  unfold Hytera.RadioControlProtocol.bodySpec
  only_errs [Hytera.RadioControlProtocol.RadioIdentificationReply.spec_errs _ _ _, Hytera.RadioControlProtocol.BroadcastStatusConfigurationRequest.spec_errs _ _]

open Dmr.Hytera in
theorem Hytera.RadioControlProtocol.spec_errs (b : Bytes) (q : Nat) : Errs [.EOFError, .UnicodeDecodeError] (Hytera.RadioControlProtocol.spec b q) := by
  unfold Hytera.RadioControlProtocol.spec
  only_errs [Hytera.RadioControlProtocol.bodySpec_errs _ _ _ _]

open Dmr.Hytera in
theorem Hytera.RadioRegistrationService.spec_errs (b : Bytes) (q : Nat) : Errs [.EOFError, .ValidationNotEqualError] (Hytera.RadioRegistrationService.spec b q) := by
  unfold Hytera.RadioRegistrationService.spec
  only_errs []

open Dmr.Hytera in
theorem Hytera.TelemetryProtocol.VioExtendedStatus.spec_errs (b : Bytes) (q : Nat) : Errs [.EOFError, .UnicodeDecodeError] (Hytera.TelemetryProtocol.VioExtendedStatus.spec b q) := by
  unfold Hytera.TelemetryProtocol.VioExtendedStatus.spec
  only_errs []

open Dmr.Hytera in
theorem Hytera.TelemetryProtocol.ExtendedStatusReport.spec_errs (b : Bytes) (q : Nat) : Errs [.EOFError, .UnicodeDecodeError] (Hytera.TelemetryProtocol.ExtendedStatusReport.spec b q) := by
  unfold Hytera.TelemetryProtocol.ExtendedStatusReport.spec
  only_errs [Hytera.TelemetryProtocol.VioExtendedStatus.spec_errs _ _]

open Dmr.Hytera in
theorem Hytera.TelemetryProtocol.bodySpec_errs (opcode : Nat) (b : Bytes) (q : Nat) : Errs [.EOFError, .UnicodeDecodeError] (Hytera.TelemetryProtocol.bodySpec opcode b q) := by
  unfold Hytera.TelemetryProtocol.bodySpec
  only_errs [Hytera.TelemetryProtocol.ExtendedStatusReport.spec_errs _ _]

open Dmr.Hytera in
theorem Hytera.TelemetryProtocol.spec_errs (b : Bytes) (q : Nat) : Errs [.EOFError, .UnicodeDecodeError] (Hytera.TelemetryProtocol.spec b q) := by
  unfold Hytera.TelemetryProtocol.spec
  only_errs [Hytera.TelemetryProtocol.bodySpec_errs _ _ _]

theorem Hytera.TextMessageProtocol.optionSpec_errs (n : Option Nat) (b : Bytes) (q : Nat) :
    Errs [.EOFError, .UnicodeDecodeError] (Hytera.TextMessageProtocol.optionSpec n b q) := by
  cases n <;> unfold Hytera.TextMessageProtocol.optionSpec <;> only_errs []

open Dmr.Hytera in
theorem Hytera.TextMessageProtocol.restSpec_errs (option_len : Option Nat) (b : Bytes) (q : Nat) (o : Nat) : Errs [.EOFError, .UnicodeDecodeError, .ValueError] (Hytera.TextMessageProtocol.restSpec option_len b q o) := by
  unfold Hytera.TextMessageProtocol.restSpec
  only_errs [Hytera.TextMessageProtocol.optionSpec_errs _ _ _]

open Dmr.Hytera in
theorem Hytera.TextMessageProtocol.spec_errs (b : Bytes) (q : Nat) : Errs [.EOFError, .UnicodeDecodeError, .ValueError] (Hytera.TextMessageProtocol.spec b q) := by
  unfold Hytera.TextMessageProtocol.spec
  only_errs [Hytera.TextMessageProtocol.restSpec_errs _ _ _ _]

open Dmr.Hytera in
theorem Hytera.HyteraDmrApplicationProtocol.bodySpec_errs (protocol : Nat) (b : Bytes) (q : Nat) : Errs [.EOFError, .ValidationNotEqualError, .UnicodeDecodeError, .ValueError] (Hytera.HyteraDmrApplicationProtocol.bodySpec protocol b q) := by
  unfold Hytera.HyteraDmrApplicationProtocol.bodySpec
  only_errs [Hytera.RadioRegistrationService.spec_errs _ _, Hytera.TelemetryProtocol.spec_errs _ _, Hytera.RadioControlProtocol.spec_errs _ _, Hytera.TextMessageProtocol.spec_errs _ _, Hytera.LocationProtocol.spec_errs _ _, Hytera.DataTransmitProtocol.spec_errs _ _]

open Dmr.Hytera in
theorem Hytera.HyteraDmrApplicationProtocol.spec_errs (b : Bytes) (q : Nat) : Errs [.EOFError, .ValidationNotEqualError, .UnicodeDecodeError, .ValueError] (Hytera.HyteraDmrApplicationProtocol.spec b q) := by
  unfold Hytera.HyteraDmrApplicationProtocol.spec
  only_errs [Hytera.HyteraDmrApplicationProtocol.bodySpec_errs _ _ _]

open Dmr.Hytera in
theorem Hytera.HyteraRadioNetworkProtocol.spec_errs (b : Bytes) (q : Nat) : Errs [.EOFError, .ValidationNotEqualError, .UnicodeDecodeError, .ValueError] (Hytera.HyteraRadioNetworkProtocol.spec b q) := by
  unfold Hytera.HyteraRadioNetworkProtocol.spec
  only_errs [Hytera.HyteraDmrApplicationProtocol.spec_errs _ _]

open Dmr.Hytera in
theorem Hytera.HyteraSimpleTransportReliabilityProtocol.Option.spec_errs (b : Bytes) (q : Nat) : Errs [.EOFError] (Hytera.HyteraSimpleTransportReliabilityProtocol.Option.spec b q) := by
  unfold Hytera.HyteraSimpleTransportReliabilityProtocol.Option.spec
  only_errs []

theorem Hytera.HyteraSimpleTransportReliabilityProtocol.spec_errs (b : Bytes) (q : Nat) :
    Errs [.EOFError, .ValidationNotEqualError, .UnicodeDecodeError, .ValueError] (Hytera.HyteraSimpleTransportReliabilityProtocol.spec b q) := by
  unfold Hytera.HyteraSimpleTransportReliabilityProtocol.spec
  refine Errs.fixedAt (by decide) (by decide) ?_
  unfold upTo
  by_cases h6 : q + 6 ≤ b.length
  · rw [if_pos h6]
    refine Errs.next (by decide) (Errs.optPart ?_) fun _ e1 h1 => ?_
    · exact Errs.mono (Errs.chain Hytera.HyteraSimpleTransportReliabilityProtocol.Option.advances
        (Hytera.HyteraSimpleTransportReliabilityProtocol.Option.parses.range b)
        (Hytera.HyteraSimpleTransportReliabilityProtocol.Option.spec_errs b) (q + 6) h6) (by decide)
    refine Errs.next (by decide) (Errs.optPart ?_) fun _ e2 _ => Errs.ok _
    exact Errs.mono (Errs.toEnd Hytera.HyteraDmrApplicationProtocol.advances (Hytera.HyteraDmrApplicationProtocol.parses.range b)
      (Hytera.HyteraDmrApplicationProtocol.spec_errs b) e1 h1) (by decide)
  · rw [if_neg h6]
    exact Errs.error (by decide)

open Dmr.Hytera in
theorem Hytera.IpSiteConnectHeartbeat.Keepalive.spec_errs (b : Bytes) (q : Nat) : Errs [.EOFError, .ValidationNotEqualError] (Hytera.IpSiteConnectHeartbeat.Keepalive.spec b q) := by
  unfold Hytera.IpSiteConnectHeartbeat.Keepalive.spec
  only_errs []

open Dmr.Hytera in
theorem Hytera.IpSiteConnectHeartbeat.PingPong.spec_errs (b : Bytes) (q : Nat) : Errs [.EOFError, .ValidationNotEqualError] (Hytera.IpSiteConnectHeartbeat.PingPong.spec b q) := by
  unfold Hytera.IpSiteConnectHeartbeat.PingPong.spec
  only_errs []

open Dmr.Hytera in
theorem Hytera.IpSiteConnectHeartbeat.spec_errs (b : Bytes) (q : Nat) : Errs [.EOFError, .ValidationNotEqualError] (Hytera.IpSiteConnectHeartbeat.spec b q) := by
  unfold Hytera.IpSiteConnectHeartbeat.spec
  only_errs [Hytera.IpSiteConnectHeartbeat.Keepalive.spec_errs _ _, Hytera.IpSiteConnectHeartbeat.PingPong.spec_errs _ _]

open Dmr.Hytera in
theorem Hytera.IpSiteConnectProtocol.spec_errs (b : Bytes) (q : Nat) : Errs [.EOFError, .ValidationNotEqualError] (Hytera.IpSiteConnectProtocol.spec b q) := by
  unfold Hytera.IpSiteConnectProtocol.spec
  only_errs []

open Dmr.Hytera in
theorem Hytera.RealTimeTransportProtocol.FixedHeader.spec_errs (b : Bytes) (q : Nat) : Errs [.EOFError, .ValidationNotEqualError] (Hytera.RealTimeTransportProtocol.FixedHeader.spec b q) := by
  unfold Hytera.RealTimeTransportProtocol.FixedHeader.spec
  only_errs []

open Dmr.Hytera in
theorem Hytera.RealTimeTransportProtocol.spec_errs (b : Bytes) (q : Nat) : Errs [.EOFError, .ValidationNotEqualError, .ValueError] (Hytera.RealTimeTransportProtocol.spec b q) := by
  unfold Hytera.RealTimeTransportProtocol.spec
  only_errs [Hytera.RealTimeTransportProtocol.FixedHeader.spec_errs _ _]

open Dmr.Etsi in
theorem Etsi.DmrCsbk.bodySpec_errs (opcode : Nat) (b : Bytes) (q : Nat) : Errs [.EOFError] (Etsi.DmrCsbk.bodySpec opcode b q) := by
  unfold Etsi.DmrCsbk.bodySpec
  only_errs []

open Dmr.Etsi in
theorem Etsi.DmrCsbk.spec_errs (b : Bytes) (q : Nat) : Errs [.EOFError] (Etsi.DmrCsbk.spec b q) := by
  unfold Etsi.DmrCsbk.spec
  only_errs [Etsi.DmrCsbk.bodySpec_errs _ _ _]

open Dmr.Etsi in
theorem Etsi.FullLinkControl.bodySpec_errs (opcode : Nat) (b : Bytes) (q : Nat) : Errs [.EOFError] (Etsi.FullLinkControl.bodySpec opcode b q) := by
  unfold Etsi.FullLinkControl.bodySpec
  only_errs []

open Dmr.Etsi in
theorem Etsi.FullLinkControl.spec_errs (b : Bytes) : Errs [.EOFError] (Etsi.FullLinkControl.spec b) := by
  unfold Etsi.FullLinkControl.spec
  only_errs [Etsi.FullLinkControl.bodySpec_errs _ _ _]

open Dmr.Etsi in
theorem Etsi.DmrIpUdp.UdpIpv4CompressedHeader.spec_errs (b : Bytes) (q : Nat) : Errs [.EOFError] (Etsi.DmrIpUdp.UdpIpv4CompressedHeader.spec b q) := by
  unfold Etsi.DmrIpUdp.UdpIpv4CompressedHeader.spec
  only_errs []

open Dmr.Homebrew in
theorem Homebrew.magicThenId_errs {α : Type} (v : Bytes) (path : String) (mk : Bytes → Nat → α) (b : Bytes) (q : Nat) : Errs [.EOFError, .ValidationNotEqualError] (Homebrew.magicThenId v path mk b q) := by
  unfold Homebrew.magicThenId
  only_errs []

open Dmr.Homebrew in
theorem Homebrew.Homebrew2015.TypeMasterPing.spec_errs (b : Bytes) (q : Nat) : Errs [.EOFError, .ValidationNotEqualError] (Homebrew.Homebrew2015.TypeMasterPing.spec b q) := by
  unfold Homebrew.Homebrew2015.TypeMasterPing.spec
  only_errs [Homebrew.magicThenId_errs _ _ _ _ _]

open Dmr.Homebrew in
theorem Homebrew.Homebrew2015.TypeRepeaterPong.spec_errs (b : Bytes) (q : Nat) : Errs [.EOFError, .ValidationNotEqualError] (Homebrew.Homebrew2015.TypeRepeaterPong.spec b q) := by
  unfold Homebrew.Homebrew2015.TypeRepeaterPong.spec
  only_errs [Homebrew.magicThenId_errs _ _ _ _ _]

open Dmr.Homebrew in
theorem Homebrew.Homebrew2015.TypeRepeaterClosing.spec_errs (b : Bytes) (q : Nat) : Errs [.EOFError, .ValidationNotEqualError] (Homebrew.Homebrew2015.TypeRepeaterClosing.spec b q) := by
  unfold Homebrew.Homebrew2015.TypeRepeaterClosing.spec
  only_errs [Homebrew.magicThenId_errs _ _ _ _ _]

open Dmr.Homebrew in
theorem Homebrew.Homebrew2015.TypeMasterNotAccept.spec_errs (b : Bytes) (q : Nat) : Errs [.EOFError, .ValidationNotEqualError] (Homebrew.Homebrew2015.TypeMasterNotAccept.spec b q) := by
  unfold Homebrew.Homebrew2015.TypeMasterNotAccept.spec
  only_errs [Homebrew.magicThenId_errs _ _ _ _ _]

open Dmr.Homebrew in
theorem Homebrew.Homebrew2015.TypeMasterClosing.spec_errs (b : Bytes) (q : Nat) : Errs [.EOFError, .ValidationNotEqualError] (Homebrew.Homebrew2015.TypeMasterClosing.spec b q) := by
  unfold Homebrew.Homebrew2015.TypeMasterClosing.spec
  only_errs [Homebrew.magicThenId_errs _ _ _ _ _]

open Dmr.Homebrew in
theorem Homebrew.Homebrew2015.TypeMasterRepeaterAck.spec_errs (b : Bytes) (q : Nat) : Errs [.EOFError, .ValidationNotEqualError] (Homebrew.Homebrew2015.TypeMasterRepeaterAck.spec b q) := by
  unfold Homebrew.Homebrew2015.TypeMasterRepeaterAck.spec
  only_errs []

open Dmr.Homebrew in
theorem Homebrew.Homebrew2015.TypeRepeaterConfiguration.spec_errs (b : Bytes) (q : Nat) : Errs [.EOFError, .UnicodeDecodeError] (Homebrew.Homebrew2015.TypeRepeaterConfiguration.spec b q) := by
  unfold Homebrew.Homebrew2015.TypeRepeaterConfiguration.spec
  only_errs []

open Dmr.Homebrew in
theorem Homebrew.Homebrew2015.TypeRepeaterConfigurationOrClosing.spec_errs (b : Bytes) (q : Nat) : Errs [.EOFError, .ValidationNotEqualError, .UnicodeDecodeError] (Homebrew.Homebrew2015.TypeRepeaterConfigurationOrClosing.spec b q) := by
  unfold Homebrew.Homebrew2015.TypeRepeaterConfigurationOrClosing.spec
  only_errs [Homebrew.Homebrew2015.TypeRepeaterClosing.spec_errs _ _, Homebrew.Homebrew2015.TypeRepeaterConfiguration.spec_errs _ _]

open Dmr.Homebrew in
theorem Homebrew.Homebrew2015.TypeDmrData.spec_errs (b : Bytes) (q : Nat) : Errs [.EOFError] (Homebrew.Homebrew2015.TypeDmrData.spec b q) := by
  unfold Homebrew.Homebrew2015.TypeDmrData.spec
  only_errs []

open Dmr.Homebrew in
theorem Homebrew.Homebrew2015.TypeRepeaterOptions.spec_errs (b : Bytes) (q : Nat) : Errs [.EOFError, .UnicodeDecodeError] (Homebrew.Homebrew2015.TypeRepeaterOptions.spec b q) := by
  unfold Homebrew.Homebrew2015.TypeRepeaterOptions.spec
  only_errs []

open Dmr.Homebrew in
theorem Homebrew.Homebrew2015.bodySpec_errs (command : PyStr) (b : Bytes) (q : Nat) : Errs [.EOFError, .ValidationNotEqualError, .UnicodeDecodeError] (Homebrew.Homebrew2015.bodySpec command b q) := by
  unfold Homebrew.Homebrew2015.bodySpec
  only_errs [Homebrew.Homebrew2015.TypeMasterRepeaterAck.spec_errs _ _, Homebrew.Homebrew2015.TypeRepeaterConfigurationOrClosing.spec_errs _ _, Homebrew.Homebrew2015.TypeDmrData.spec_errs _ _, Homebrew.Homebrew2015.TypeMasterClosing.spec_errs _ _, Homebrew.Homebrew2015.TypeRepeaterPong.spec_errs _ _, Homebrew.Homebrew2015.TypeMasterPing.spec_errs _ _, Homebrew.Homebrew2015.TypeMasterNotAccept.spec_errs _ _]

open Dmr.Homebrew in
theorem Homebrew.Homebrew2015.spec_errs (b : Bytes) (q : Nat) : Errs [.EOFError, .ValidationNotEqualError, .UnicodeDecodeError] (Homebrew.Homebrew2015.spec b q) := by
  unfold Homebrew.Homebrew2015.spec
  only_errs [Homebrew.Homebrew2015.bodySpec_errs _ _ _]

open Dmr.Homebrew in
theorem Homebrew.Mmdvm2020.TypeMasterPong.spec_errs (b : Bytes) (q : Nat) : Errs [.EOFError, .ValidationNotEqualError] (Homebrew.Mmdvm2020.TypeMasterPong.spec b q) := by
  unfold Homebrew.Mmdvm2020.TypeMasterPong.spec
  only_errs [Homebrew.magicThenId_errs _ _ _ _ _]

open Dmr.Homebrew in
theorem Homebrew.Mmdvm2020.TypeRepeaterPing.spec_errs (b : Bytes) (q : Nat) : Errs [.EOFError, .ValidationNotEqualError] (Homebrew.Mmdvm2020.TypeRepeaterPing.spec b q) := by
  unfold Homebrew.Mmdvm2020.TypeRepeaterPing.spec
  only_errs [Homebrew.magicThenId_errs _ _ _ _ _]

open Dmr.Homebrew in
theorem Homebrew.Mmdvm2020.TypeRepeaterClosing.spec_errs (b : Bytes) (q : Nat) : Errs [.EOFError, .ValidationNotEqualError] (Homebrew.Mmdvm2020.TypeRepeaterClosing.spec b q) := by
  unfold Homebrew.Mmdvm2020.TypeRepeaterClosing.spec
  only_errs [Homebrew.magicThenId_errs _ _ _ _ _]

open Dmr.Homebrew in
theorem Homebrew.Mmdvm2020.TypeMasterNotAccept.spec_errs (b : Bytes) (q : Nat) : Errs [.EOFError, .ValidationNotEqualError] (Homebrew.Mmdvm2020.TypeMasterNotAccept.spec b q) := by
  unfold Homebrew.Mmdvm2020.TypeMasterNotAccept.spec
  only_errs [Homebrew.magicThenId_errs _ _ _ _ _]

open Dmr.Homebrew in
theorem Homebrew.Mmdvm2020.TypeMasterClosing.spec_errs (b : Bytes) (q : Nat) : Errs [.EOFError, .ValidationNotEqualError] (Homebrew.Mmdvm2020.TypeMasterClosing.spec b q) := by
  unfold Homebrew.Mmdvm2020.TypeMasterClosing.spec
  only_errs [Homebrew.magicThenId_errs _ _ _ _ _]

open Dmr.Homebrew in
theorem Homebrew.Mmdvm2020.TypeMasterRepeaterAck.spec_errs (b : Bytes) (q : Nat) : Errs [.EOFError, .ValidationNotEqualError] (Homebrew.Mmdvm2020.TypeMasterRepeaterAck.spec b q) := by
  unfold Homebrew.Mmdvm2020.TypeMasterRepeaterAck.spec
  only_errs [Homebrew.magicThenId_errs _ _ _ _ _]

open Dmr.Homebrew in
theorem Homebrew.Mmdvm2020.TypeTalkerAlias.spec_errs (b : Bytes) (q : Nat) : Errs [.EOFError, .UnicodeDecodeError] (Homebrew.Mmdvm2020.TypeTalkerAlias.spec b q) := by
  unfold Homebrew.Mmdvm2020.TypeTalkerAlias.spec
  only_errs []

open Dmr.Homebrew in
theorem Homebrew.Mmdvm2020.TypeRepeaterBeacon.spec_errs (b : Bytes) (q : Nat) : Errs [] (Homebrew.Mmdvm2020.TypeRepeaterBeacon.spec b q) := by
  unfold Homebrew.Mmdvm2020.TypeRepeaterBeacon.spec
  only_errs []

open Dmr.Homebrew in
theorem Homebrew.Mmdvm2020.TypeUnknown.spec_errs (b : Bytes) (q : Nat) : Errs [] (Homebrew.Mmdvm2020.TypeUnknown.spec b q) := by
  unfold Homebrew.Mmdvm2020.TypeUnknown.spec
  only_errs []

open Dmr.Homebrew in
theorem Homebrew.Mmdvm2020.TypeRepeaterConfiguration.spec_errs (b : Bytes) (q : Nat) : Errs [.EOFError, .UnicodeDecodeError] (Homebrew.Mmdvm2020.TypeRepeaterConfiguration.spec b q) := by
  unfold Homebrew.Mmdvm2020.TypeRepeaterConfiguration.spec
  only_errs []

open Dmr.Homebrew in
theorem Homebrew.Mmdvm2020.TypeRepeaterConfigurationOrClosing.spec_errs (b : Bytes) (q : Nat) : Errs [.EOFError, .ValidationNotEqualError, .UnicodeDecodeError] (Homebrew.Mmdvm2020.TypeRepeaterConfigurationOrClosing.spec b q) := by
  unfold Homebrew.Mmdvm2020.TypeRepeaterConfigurationOrClosing.spec
  only_errs [Homebrew.Mmdvm2020.TypeRepeaterClosing.spec_errs _ _, Homebrew.Mmdvm2020.TypeRepeaterConfiguration.spec_errs _ _]

open Dmr.Homebrew in
theorem Homebrew.Mmdvm2020.TypeDmrData.spec_errs (b : Bytes) (q : Nat) : Errs [.EOFError] (Homebrew.Mmdvm2020.TypeDmrData.spec b q) := by
  unfold Homebrew.Mmdvm2020.TypeDmrData.spec
  only_errs []

open Dmr.Homebrew in
theorem Homebrew.Mmdvm2020.TypeRepeaterOptions.spec_errs (b : Bytes) (q : Nat) : Errs [.EOFError, .UnicodeDecodeError] (Homebrew.Mmdvm2020.TypeRepeaterOptions.spec b q) := by
  unfold Homebrew.Mmdvm2020.TypeRepeaterOptions.spec
  only_errs []

open Dmr.Homebrew in
theorem Homebrew.Mmdvm2020.bodySpec_errs (command : PyStr) (b : Bytes) (q : Nat) : Errs [.EOFError, .ValidationNotEqualError, .UnicodeDecodeError] (Homebrew.Mmdvm2020.bodySpec command b q) := by
  unfold Homebrew.Mmdvm2020.bodySpec
  only_errs [Homebrew.Mmdvm2020.TypeMasterRepeaterAck.spec_errs _ _, Homebrew.Mmdvm2020.TypeRepeaterConfigurationOrClosing.spec_errs _ _, Homebrew.Mmdvm2020.TypeDmrData.spec_errs _ _, Homebrew.Mmdvm2020.TypeMasterClosing.spec_errs _ _, Homebrew.Mmdvm2020.TypeRepeaterPing.spec_errs _ _, Homebrew.Mmdvm2020.TypeRepeaterOptions.spec_errs _ _, Homebrew.Mmdvm2020.TypeMasterPong.spec_errs _ _, Homebrew.Mmdvm2020.TypeRepeaterBeacon.spec_errs _ _, Homebrew.Mmdvm2020.TypeMasterNotAccept.spec_errs _ _, Homebrew.Mmdvm2020.TypeTalkerAlias.spec_errs _ _]

open Dmr.Homebrew in
theorem Homebrew.Mmdvm2020.spec_errs (b : Bytes) (q : Nat) : Errs [.EOFError, .ValidationNotEqualError, .UnicodeDecodeError] (Homebrew.Mmdvm2020.spec b q) := by
  unfold Homebrew.Mmdvm2020.spec
  only_errs [Homebrew.Mmdvm2020.bodySpec_errs _ _ _]

open Dmr.Motorola in
theorem Motorola.lengthPrefixed_errs (b : Bytes) (q : Nat) : Errs [.EOFError] (Motorola.lengthPrefixed b q) := by
  unfold Motorola.lengthPrefixed
  only_errs []

open Dmr.Motorola in
theorem Motorola.AutomaticRegistrationService.AcknowledgementMessage.spec_errs (h : AutomaticRegistrationService.MessageHeaderBits) (b : Bytes) (q : Nat) : Errs [.EOFError] (Motorola.AutomaticRegistrationService.AcknowledgementMessage.spec h b q) := by
  unfold Motorola.AutomaticRegistrationService.AcknowledgementMessage.spec
  only_errs []

open Dmr.Motorola in
theorem Motorola.AutomaticRegistrationService.DeviceRegistrationMessage.spec_errs (h : AutomaticRegistrationService.MessageHeaderBits) (b : Bytes) (q : Nat) : Errs [.EOFError] (Motorola.AutomaticRegistrationService.DeviceRegistrationMessage.spec h b q) := by
  unfold Motorola.AutomaticRegistrationService.DeviceRegistrationMessage.spec
  only_errs [Motorola.lengthPrefixed_errs _ _]

open Dmr.Motorola in
theorem Motorola.AutomaticRegistrationService.bodySpec_errs (pdu_type : Nat) (h : AutomaticRegistrationService.MessageHeaderBits) (b : Bytes) (q : Nat) : Errs [.EOFError] (Motorola.AutomaticRegistrationService.bodySpec pdu_type h b q) := by
  unfold Motorola.AutomaticRegistrationService.bodySpec
  only_errs [Motorola.AutomaticRegistrationService.DeviceRegistrationMessage.spec_errs _ _ _, Motorola.AutomaticRegistrationService.AcknowledgementMessage.spec_errs _ _ _]

open Dmr.Motorola in
theorem Motorola.AutomaticRegistrationService.spec_errs (b : Bytes) (q : Nat) : Errs [.EOFError] (Motorola.AutomaticRegistrationService.spec b q) := by
  unfold Motorola.AutomaticRegistrationService.spec
  only_errs [Motorola.AutomaticRegistrationService.bodySpec_errs _ _ _ _]

theorem Motorola.varBytes_errs (b : Bytes) (q : Nat) : Errs [.EOFError] (Motorola.varBytes b q) := by
  unfold Motorola.varBytes
  by_cases hq : q ≤ b.length
  · refine Errs.chain ?_ (fun _ _ => InRange.whole) (fun _ => Errs.whole (by decide)) q hq
    intro b q a e h
    unfold whole at h
    split at h
    · cases h; omega
    · cases h
  · rw [Dmr.chain, whole, if_neg (by omega)]
    exact Errs.error (by decide)

open Dmr.Motorola in
theorem Motorola.MotorolaBinaryXml.Uintvar.spec_errs (b : Bytes) (q : Nat) : Errs [.EOFError] (Motorola.MotorolaBinaryXml.Uintvar.spec b q) := by
  unfold Motorola.MotorolaBinaryXml.Uintvar.spec
  only_errs [Motorola.varBytes_errs _ _]

open Dmr.Motorola in
theorem Motorola.MotorolaBinaryXml.Sintvar.spec_errs (b : Bytes) (q : Nat) : Errs [.EOFError] (Motorola.MotorolaBinaryXml.Sintvar.spec b q) := by
  unfold Motorola.MotorolaBinaryXml.Sintvar.spec
  only_errs [Motorola.varBytes_errs _ _]

open Dmr.Motorola in
theorem Motorola.MotorolaBinaryXml.Ufloatvar.spec_errs (b : Bytes) (q : Nat) : Errs [.EOFError] (Motorola.MotorolaBinaryXml.Ufloatvar.spec b q) := by
  unfold Motorola.MotorolaBinaryXml.Ufloatvar.spec
  only_errs [Motorola.varBytes_errs _ _]

open Dmr.Motorola in
theorem Motorola.MotorolaBinaryXml.Sfloatvar.spec_errs (b : Bytes) (q : Nat) : Errs [.EOFError] (Motorola.MotorolaBinaryXml.Sfloatvar.spec b q) := by
  unfold Motorola.MotorolaBinaryXml.Sfloatvar.spec
  only_errs [Motorola.varBytes_errs _ _]

open Dmr.Motorola in
theorem Motorola.MotorolaBinaryXml.ConstantDataTableReference.spec_errs (b : Bytes) (q : Nat) : Errs [.EOFError] (Motorola.MotorolaBinaryXml.ConstantDataTableReference.spec b q) := by
  unfold Motorola.MotorolaBinaryXml.ConstantDataTableReference.spec
  only_errs [Motorola.varBytes_errs _ _]

open Dmr.Motorola in
theorem Motorola.MotorolaBinaryXml.OpaqueElementValue.spec_errs (b : Bytes) (q : Nat) : Errs [.EOFError] (Motorola.MotorolaBinaryXml.OpaqueElementValue.spec b q) := by
  unfold Motorola.MotorolaBinaryXml.OpaqueElementValue.spec
  only_errs []

open Dmr.Motorola in
theorem Motorola.MotorolaBinaryXml.LrrpElement.bodySpec_errs (type : Nat) (b : Bytes) (q : Nat) : Errs [.EOFError] (Motorola.MotorolaBinaryXml.LrrpElement.bodySpec type b q) := by
  unfold Motorola.MotorolaBinaryXml.LrrpElement.bodySpec
  only_errs [Motorola.MotorolaBinaryXml.OpaqueElementValue.spec_errs _ _, Motorola.MotorolaBinaryXml.ConstantDataTableReference.spec_errs _ _]

open Dmr.Motorola in
theorem Motorola.MotorolaBinaryXml.LrrpElement.spec_errs (b : Bytes) (q : Nat) : Errs [.EOFError] (Motorola.MotorolaBinaryXml.LrrpElement.spec b q) := by
  unfold Motorola.MotorolaBinaryXml.LrrpElement.spec
  only_errs [Motorola.MotorolaBinaryXml.LrrpElement.bodySpec_errs _ _ _]

open Dmr.Motorola in
theorem Motorola.MotorolaBinaryXml.MbxmlDocument.spec_errs (b : Bytes) (q : Nat) : Errs [.EOFError] (Motorola.MotorolaBinaryXml.MbxmlDocument.spec b q) := by
  unfold Motorola.MotorolaBinaryXml.MbxmlDocument.spec
  only_errs [Motorola.varBytes_errs _ _, Motorola.MotorolaBinaryXml.LrrpElement.spec_errs _ _]

theorem Motorola.MotorolaBinaryXml.spec_errs (b : Bytes) (q : Nat) (hq : q ≤ b.length) : Errs [.EOFError] (Motorola.MotorolaBinaryXml.spec b q) := by
  unfold Motorola.MotorolaBinaryXml.spec
  exact Errs.as _ (Errs.chain Motorola.MotorolaBinaryXml.MbxmlDocument.advances (Motorola.MotorolaBinaryXml.MbxmlDocument.parses.range b)
    (Motorola.MotorolaBinaryXml.MbxmlDocument.spec_errs b) q hq)

open Dmr.Motorola in
theorem Motorola.TextMessageProtocol.TextMessage.spec_errs (h : TextMessageProtocol.MessageHeaderBits) (b : Bytes) (q : Nat) : Errs [.EOFError, .UnicodeDecodeError] (Motorola.TextMessageProtocol.TextMessage.spec h b q) := by
  unfold Motorola.TextMessageProtocol.TextMessage.spec
  only_errs []

open Dmr.Motorola in
theorem Motorola.TextMessageProtocol.TmsAcknowledgementHeaderSequenceNumber.spec_errs (b : Bytes) (q : Nat) : Errs [.EOFError] (Motorola.TextMessageProtocol.TmsAcknowledgementHeaderSequenceNumber.spec b q) := by
  unfold Motorola.TextMessageProtocol.TmsAcknowledgementHeaderSequenceNumber.spec
  only_errs []

open Dmr.Motorola in
theorem Motorola.TextMessageProtocol.TmsAcknowledgement.spec_errs (h : TextMessageProtocol.MessageHeaderBits) (b : Bytes) (q : Nat) : Errs [.EOFError] (Motorola.TextMessageProtocol.TmsAcknowledgement.spec h b q) := by
  unfold Motorola.TextMessageProtocol.TmsAcknowledgement.spec
  only_errs [Motorola.TextMessageProtocol.TmsAcknowledgementHeaderSequenceNumber.spec_errs _ _]

open Dmr.Motorola in
theorem Motorola.TextMessageProtocol.TmsServiceAvailability.spec_errs (h : TextMessageProtocol.MessageHeaderBits) (b : Bytes) (q : Nat) : Errs [.EOFError] (Motorola.TextMessageProtocol.TmsServiceAvailability.spec h b q) := by
  unfold Motorola.TextMessageProtocol.TmsServiceAvailability.spec
  only_errs []

open Dmr.Motorola in
theorem Motorola.TextMessageProtocol.bodySpec_errs (ack : Bool) (control : Bool) (pdu_type : Nat) (h : TextMessageProtocol.MessageHeaderBits) (b : Bytes) (q : Nat) : Errs [.EOFError, .UnicodeDecodeError] (Motorola.TextMessageProtocol.bodySpec ack control pdu_type h b q) := by
  unfold Motorola.TextMessageProtocol.bodySpec
  only_errs [Motorola.TextMessageProtocol.TmsServiceAvailability.spec_errs _ _ _, Motorola.TextMessageProtocol.TmsAcknowledgement.spec_errs _ _ _, Motorola.TextMessageProtocol.TextMessage.spec_errs _ _ _]

open Dmr.Motorola in
theorem Motorola.TextMessageProtocol.spec_errs (b : Bytes) (q : Nat) : Errs [.EOFError, .UnicodeDecodeError] (Motorola.TextMessageProtocol.spec b q) := by
  unfold Motorola.TextMessageProtocol.spec
  only_errs [Motorola.lengthPrefixed_errs _ _, Motorola.TextMessageProtocol.bodySpec_errs _ _ _ _ _ _]

end Dmr
