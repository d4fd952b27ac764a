import Verif.Layout
import Verif.Spec.Etsi
import Verif.Enums
/-
The Etsi decoders read fields where `Verif/Spec/Etsi.lean` says they are.
-/

namespace Dmr.Etsi

fixed_layout DmrCsbk.NegativeAckResponseData 8
fixed_layout DmrCsbk.ServiceOptions 1
fixed_layout DmrCsbk.UnitToUnitVoiceRequestData 8
fixed_layout DmrCsbk.PreambleData 8
fixed_layout DmrCsbk.ChannelTimingData 8
fixed_layout DmrCsbk.BsOutboundActivationData 8
fixed_layout DmrCsbk.UnitToUnitVoiceAnswerData 8
fixed_layout DmrData.Rate1LastBlockUnconfirmed 24
fixed_layout DmrData.Rate12LastBlockConfirmed 12
fixed_layout DmrData.Rate12Confirmed 12
fixed_layout DmrData.Rate34LastBlockUnconfirmed 18
fixed_layout DmrData.Rate1LastBlockConfirmed 24
fixed_layout DmrData.Rate1Unconfirmed 24
fixed_layout DmrData.UdtLastBlock 12
fixed_layout DmrData.Rate34Confirmed 18
fixed_layout DmrData.Rate34LastBlockConfirmed 18
fixed_layout DmrData.Rate34Unconfirmed 18
fixed_layout DmrData.Rate12LastBlockUnconfirmed 12
fixed_layout DmrData.Rate1Confirmed 24
fixed_layout DmrData.Rate12Unconfirmed 12
fixed_layout DmrDataHeader.DataHeaderShortRaw 12
fixed_layout DmrDataHeader.DataHeaderProprietary 12
fixed_layout DmrDataHeader.DataHeaderShortStatusPrecoded 12
fixed_layout DmrDataHeader.DataHeaderResponse 12
fixed_layout DmrDataHeader.DataHeaderConfirmed 12
fixed_layout DmrDataHeader.DataHeaderUnconfirmed 12
fixed_layout DmrDataHeader.DataHeaderShortDefined 12
fixed_layout DmrDataHeader.DataHeaderUdt 12
fixed_layout DmrDataHeader 1
fixed_layout FullLinkControl.GpsInfoLcPdu 7
fixed_layout FullLinkControl.GroupVoiceChannelUser 7
fixed_layout FullLinkControl.UnitToUnitVoiceChannelUser 7
fixed_layout FullLinkControl.TalkerAliasHeader 7
fixed_layout FullLinkControl.TalkerAliasContinuation 7

end Dmr.Etsi
