import Verif.Lossless
import Verif.Model.Etsi.DmrCsbk
import Verif.Model.Etsi.DmrData
import Verif.Model.Etsi.DmrDataHeader
import Verif.Model.Etsi.DmrIpUdp
import Verif.Model.Etsi.FullLinkControl
import Verif.Model.Homebrew.Homebrew2015
import Verif.Model.Homebrew.Mmdvm2020
import Verif.Model.Hytera.DataDeliveryStates
import Verif.Model.Hytera.DataTransmitProtocol
import Verif.Model.Hytera.Datetimestring
import Verif.Model.Hytera.Gpsdata
import Verif.Model.Hytera.HyteraDmrApplicationProtocol
import Verif.Model.Hytera.HyteraRadioNetworkProtocol
import Verif.Model.Hytera.HyteraSimpleTransportReliabilityProtocol
import Verif.Model.Hytera.Intervalstring
import Verif.Model.Hytera.IpSiteConnectHeartbeat
import Verif.Model.Hytera.IpSiteConnectProtocol
import Verif.Model.Hytera.LocationProtocol
import Verif.Model.Hytera.RadioControlProtocol
import Verif.Model.Hytera.RadioId
import Verif.Model.Hytera.RadioIp
import Verif.Model.Hytera.RadioRegistrationService
import Verif.Model.Hytera.RealTimeTransportProtocol
import Verif.Model.Hytera.TelemetryProtocol
import Verif.Model.Hytera.TextMessageProtocol
import Verif.Model.Motorola.AutomaticRegistrationService
import Verif.Model.Motorola.MotorolaBinaryXml
import Verif.Model.Motorola.MotorolaUtils
import Verif.Model.Motorola.TextMessageProtocol
/-
`Lossless` for the decoders whose result determines the bytes they consumed (generated by tools/mklossless.py).
-/

set_option linter.unusedVariables false

namespace Dmr

open Dmr.Etsi in
theorem Etsi.DmrCsbk.NegativeAckResponseData.read_lossless : Lossless 0 (Etsi.DmrCsbk.NegativeAckResponseData.read) (Etsi.DmrCsbk.NegativeAckResponseData.read) 0 := by
  unfold Etsi.DmrCsbk.NegativeAckResponseData.read
  refine Lossless.bind (m := 1) (·.additional_information_field) (Lossless.flag' rfl) (fun additional_information_field => ?_) (by returns) (by returns)
  refine Lossless.bind (m := 2) (·.source_type) (Lossless.flag' rfl) (fun source_type => ?_) (by returns) (by returns)
  refine Lossless.bind (m := 0) (·.service_type) (Lossless.bits' 6 rfl) (fun service_type => ?_) (by returns) (by returns)
  refine Lossless.bind (m := 0) (·.reason_code) (Lossless.bits' 8 rfl) (fun reason_code => ?_) (by returns) (by returns)
  refine Lossless.bind (m := 0) (·.source_address) (Lossless.bits' 24 rfl) (fun source_address => ?_) (by returns) (by returns)
  refine Lossless.bind (m := 0) (·.target_address) (Lossless.bits' 24 rfl) (fun target_address => ?_) (by returns) (by returns)
  exact Lossless.pure rfl

open Dmr.Etsi in
theorem Etsi.DmrCsbk.ServiceOptions.read_lossless : Lossless 0 (Etsi.DmrCsbk.ServiceOptions.read) (Etsi.DmrCsbk.ServiceOptions.read) 0 := by
  unfold Etsi.DmrCsbk.ServiceOptions.read
  refine Lossless.bind (m := 1) (·.is_emergency_service) (Lossless.flag' rfl) (fun is_emergency_service => ?_) (by returns) (by returns)
  refine Lossless.bind (m := 2) (·.privacy) (Lossless.flag' rfl) (fun privacy => ?_) (by returns) (by returns)
  refine Lossless.bind (m := 4) (·.reserved) (Lossless.bits' 2 rfl) (fun reserved => ?_) (by returns) (by returns)
  refine Lossless.bind (m := 5) (·.is_broadcast_service) (Lossless.flag' rfl) (fun is_broadcast_service => ?_) (by returns) (by returns)
  refine Lossless.bind (m := 6) (·.is_open_voice_call_mode) (Lossless.flag' rfl) (fun is_open_voice_call_mode => ?_) (by returns) (by returns)
  refine Lossless.bind (m := 0) (·.priority_level) (Lossless.bits' 2 rfl) (fun priority_level => ?_) (by returns) (by returns)
  exact Lossless.pure rfl

open Dmr.Etsi in
theorem Etsi.DmrCsbk.UnitToUnitVoiceRequestData.read_lossless : Lossless 0 (Etsi.DmrCsbk.UnitToUnitVoiceRequestData.read) (Etsi.DmrCsbk.UnitToUnitVoiceRequestData.read) 0 := by
  unfold Etsi.DmrCsbk.UnitToUnitVoiceRequestData.read
  refine Lossless.bind (m := 0) (·.service_options) (Etsi.DmrCsbk.ServiceOptions.read_lossless) (fun service_options => ?_) (by returns) (by returns)
  refine Lossless.bind (m := 0) (·.reserved) (Lossless.bits' 8 rfl) (fun reserved => ?_) (by returns) (by returns)
  refine Lossless.bind (m := 0) (·.target_address) (Lossless.bits' 24 rfl) (fun target_address => ?_) (by returns) (by returns)
  refine Lossless.bind (m := 0) (·.source_address) (Lossless.bits' 24 rfl) (fun source_address => ?_) (by returns) (by returns)
  exact Lossless.pure rfl

open Dmr.Etsi in
theorem Etsi.DmrCsbk.PreambleData.read_lossless : Lossless 0 (Etsi.DmrCsbk.PreambleData.read) (Etsi.DmrCsbk.PreambleData.read) 0 := by
  unfold Etsi.DmrCsbk.PreambleData.read
  refine Lossless.bind (m := 1) (·.preamble_data_or_csbk) (Lossless.asEnum (Lossless.bits' 1 rfl)) (fun preamble_data_or_csbk => ?_) (by returns) (by returns)
  refine Lossless.bind (m := 2) (·.group_or_individual) (Lossless.asEnum (Lossless.bits' 1 rfl)) (fun group_or_individual => ?_) (by returns) (by returns)
  refine Lossless.bind (m := 0) (·.preamble_reserved) (Lossless.bits' 6 rfl) (fun preamble_reserved => ?_) (by returns) (by returns)
  refine Lossless.bind (m := 0) (·.preamble_csbk_blocks_to_follow) (Lossless.bits' 8 rfl) (fun preamble_csbk_blocks_to_follow => ?_) (by returns) (by returns)
  refine Lossless.bind (m := 0) (·.target_address) (Lossless.bits' 24 rfl) (fun target_address => ?_) (by returns) (by returns)
  refine Lossless.bind (m := 0) (·.source_address) (Lossless.bits' 24 rfl) (fun source_address => ?_) (by returns) (by returns)
  exact Lossless.pure rfl

open Dmr.Etsi in
theorem Etsi.DmrCsbk.ChannelTimingData.read_lossless : Lossless 0 (Etsi.DmrCsbk.ChannelTimingData.read) (Etsi.DmrCsbk.ChannelTimingData.read) 0 := by
  unfold Etsi.DmrCsbk.ChannelTimingData.read
  refine Lossless.bind (m := 3) (·.sync_age) (Lossless.bits' 11 rfl) (fun sync_age => ?_) (by returns) (by returns)
  refine Lossless.bind (m := 0) (·.generation) (Lossless.bits' 5 rfl) (fun generation => ?_) (by returns) (by returns)
  refine Lossless.bind (m := 4) (·.leader_identifier) (Lossless.bits' 20 rfl) (fun leader_identifier => ?_) (by returns) (by returns)
  refine Lossless.bind (m := 5) (·.new_leader) (Lossless.flag' rfl) (fun new_leader => ?_) (by returns) (by returns)
  refine Lossless.bind (m := 7) (·.leader_dynamic_identifier) (Lossless.bits' 2 rfl) (fun leader_dynamic_identifier => ?_) (by returns) (by returns)
  refine Lossless.bind (m := 0) (·.channel_timing_op1) (Lossless.flag' rfl) (fun channel_timing_op1 => ?_) (by returns) (by returns)
  refine Lossless.bind (m := 4) (·.source_identifier) (Lossless.bits' 20 rfl) (fun source_identifier => ?_) (by returns) (by returns)
  refine Lossless.bind (m := 5) (·.reserved) (Lossless.flag' rfl) (fun reserved => ?_) (by returns) (by returns)
  refine Lossless.bind (m := 7) (·.source_dynamic_identifier) (Lossless.bits' 2 rfl) (fun source_dynamic_identifier => ?_) (by returns) (by returns)
  refine Lossless.bind (m := 0) (·.channel_timing_op0) (Lossless.flag' rfl) (fun channel_timing_op0 => ?_) (by returns) (by returns)
  exact Lossless.pure rfl

open Dmr.Etsi in
theorem Etsi.DmrCsbk.BsOutboundActivationData.read_lossless : Lossless 0 (Etsi.DmrCsbk.BsOutboundActivationData.read) (Etsi.DmrCsbk.BsOutboundActivationData.read) 0 := by
  unfold Etsi.DmrCsbk.BsOutboundActivationData.read
  refine Lossless.bind (m := 0) (·.reserved) (Lossless.bits' 16 rfl) (fun reserved => ?_) (by returns) (by returns)
  refine Lossless.bind (m := 0) (·.bs_address) (Lossless.bits' 24 rfl) (fun bs_address => ?_) (by returns) (by returns)
  refine Lossless.bind (m := 0) (·.source_address) (Lossless.bits' 24 rfl) (fun source_address => ?_) (by returns) (by returns)
  exact Lossless.pure rfl

open Dmr.Etsi in
theorem Etsi.DmrCsbk.UnitToUnitVoiceAnswerData.read_lossless : Lossless 0 (Etsi.DmrCsbk.UnitToUnitVoiceAnswerData.read) (Etsi.DmrCsbk.UnitToUnitVoiceAnswerData.read) 0 := by
  unfold Etsi.DmrCsbk.UnitToUnitVoiceAnswerData.read
  refine Lossless.bind (m := 0) (·.service_options) (Etsi.DmrCsbk.ServiceOptions.read_lossless) (fun service_options => ?_) (by returns) (by returns)
  refine Lossless.bind (m := 0) (·.answer_response) (Lossless.asEnum (Lossless.bits' 8 rfl)) (fun answer_response => ?_) (by returns) (by returns)
  refine Lossless.bind (m := 0) (·.target_address) (Lossless.bits' 24 rfl) (fun target_address => ?_) (by returns) (by returns)
  refine Lossless.bind (m := 0) (·.source_address) (Lossless.bits' 24 rfl) (fun source_address => ?_) (by returns) (by returns)
  exact Lossless.pure rfl

open Dmr.Etsi in
theorem Etsi.DmrCsbk.readCsbkData_lossless (on : EnumVal DmrCsbk.CsbkoTypes) : Lossless 0 (Etsi.DmrCsbk.readCsbkData on) (Etsi.DmrCsbk.readCsbkData on) 0 := by
  unfold Etsi.DmrCsbk.readCsbkData
  refine Lossless.ite (fun _ => Lossless.map (Etsi.DmrCsbk.UnitToUnitVoiceAnswerData.read_lossless) fun _ _ h => by injections) fun _ => ?_
  refine Lossless.ite (fun _ => Lossless.map (Etsi.DmrCsbk.PreambleData.read_lossless) fun _ _ h => by injections) fun _ => ?_
  refine Lossless.ite (fun _ => Lossless.map (Etsi.DmrCsbk.ChannelTimingData.read_lossless) fun _ _ h => by injections) fun _ => ?_
  refine Lossless.ite (fun _ => Lossless.map (Etsi.DmrCsbk.UnitToUnitVoiceRequestData.read_lossless) fun _ _ h => by injections) fun _ => ?_
  refine Lossless.ite (fun _ => Lossless.map (Etsi.DmrCsbk.BsOutboundActivationData.read_lossless) fun _ _ h => by injections) fun _ => ?_
  refine Lossless.ite (fun _ => Lossless.map (Etsi.DmrCsbk.NegativeAckResponseData.read_lossless) fun _ _ h => by injections) fun _ => ?_
  exact Lossless.pure rfl

open Dmr.Etsi in
theorem Etsi.DmrCsbk.read_lossless : Lossless 0 (Etsi.DmrCsbk.read) (Etsi.DmrCsbk.read) 0 := by
  unfold Etsi.DmrCsbk.read
  refine Lossless.bind (m := 1) (·.last_block) (Lossless.flag' rfl) (fun last_block => ?_) (by returns) (by returns)
  refine Lossless.bind (m := 2) (·.protect_flag) (Lossless.flag' rfl) (fun protect_flag => ?_) (by returns) (by returns)
  refine Lossless.bind (m := 0) (·.csbk_opcode) (Lossless.asEnum (Lossless.bits' 6 rfl)) (fun csbk_opcode => ?_) (by returns) (by returns)
  refine Lossless.bind (m := 0) (·.feature_set_id) (Lossless.bits' 8 rfl) (fun feature_set_id => ?_) (by returns) (by returns)
  refine Lossless.align rfl ?_
  refine Lossless.bind (m := 0) (·.csbk_data) (Etsi.DmrCsbk.readCsbkData_lossless _) (fun csbk_data => ?_) (by returns) (by returns)
  exact Lossless.pure rfl

open Dmr.Etsi in
theorem Etsi.DmrData.Rate1LastBlockUnconfirmed.read_lossless : Lossless 0 (Etsi.DmrData.Rate1LastBlockUnconfirmed.read) (Etsi.DmrData.Rate1LastBlockUnconfirmed.read) 0 := by
  unfold Etsi.DmrData.Rate1LastBlockUnconfirmed.read
  refine Lossless.bind (m := 0) (·.user_data) (Lossless.bytes _) (fun user_data => ?_) (by returns) (by returns)
  refine Lossless.bind (m := 0) (·.message_crc32) (Lossless.bytes _) (fun message_crc32 => ?_) (by returns) (by returns)
  exact Lossless.pure rfl

open Dmr.Etsi in
theorem Etsi.DmrData.Rate12LastBlockConfirmed.read_lossless : Lossless 0 (Etsi.DmrData.Rate12LastBlockConfirmed.read) (Etsi.DmrData.Rate12LastBlockConfirmed.read) 0 := by
  unfold Etsi.DmrData.Rate12LastBlockConfirmed.read
  refine Lossless.bind (m := 7) (·.data_block_serial_number) (Lossless.bits' 7 rfl) (fun data_block_serial_number => ?_) (by returns) (by returns)
  refine Lossless.bind (m := 0) (·.crc9) (Lossless.bits' 9 rfl) (fun crc9 => ?_) (by returns) (by returns)
  refine Lossless.align rfl ?_
  refine Lossless.bind (m := 0) (·.user_data) (Lossless.bytes _) (fun user_data => ?_) (by returns) (by returns)
  refine Lossless.bind (m := 0) (·.message_crc32) (Lossless.bytes _) (fun message_crc32 => ?_) (by returns) (by returns)
  exact Lossless.pure rfl

open Dmr.Etsi in
theorem Etsi.DmrData.Rate12Confirmed.read_lossless : Lossless 0 (Etsi.DmrData.Rate12Confirmed.read) (Etsi.DmrData.Rate12Confirmed.read) 0 := by
  unfold Etsi.DmrData.Rate12Confirmed.read
  refine Lossless.bind (m := 7) (·.data_block_serial_number) (Lossless.bits' 7 rfl) (fun data_block_serial_number => ?_) (by returns) (by returns)
  refine Lossless.bind (m := 0) (·.crc9) (Lossless.bits' 9 rfl) (fun crc9 => ?_) (by returns) (by returns)
  refine Lossless.align rfl ?_
  refine Lossless.bind (m := 0) (·.user_data) (Lossless.bytes _) (fun user_data => ?_) (by returns) (by returns)
  exact Lossless.pure rfl

open Dmr.Etsi in
theorem Etsi.DmrData.Rate34LastBlockUnconfirmed.read_lossless : Lossless 0 (Etsi.DmrData.Rate34LastBlockUnconfirmed.read) (Etsi.DmrData.Rate34LastBlockUnconfirmed.read) 0 := by
  unfold Etsi.DmrData.Rate34LastBlockUnconfirmed.read
  refine Lossless.bind (m := 0) (·.user_data) (Lossless.bytes _) (fun user_data => ?_) (by returns) (by returns)
  refine Lossless.bind (m := 0) (·.message_crc32) (Lossless.bytes _) (fun message_crc32 => ?_) (by returns) (by returns)
  exact Lossless.pure rfl

open Dmr.Etsi in
theorem Etsi.DmrData.Rate1LastBlockConfirmed.read_lossless : Lossless 0 (Etsi.DmrData.Rate1LastBlockConfirmed.read) (Etsi.DmrData.Rate1LastBlockConfirmed.read) 0 := by
  unfold Etsi.DmrData.Rate1LastBlockConfirmed.read
  refine Lossless.bind (m := 7) (·.data_block_serial_number) (Lossless.bits' 7 rfl) (fun data_block_serial_number => ?_) (by returns) (by returns)
  refine Lossless.bind (m := 0) (·.crc9) (Lossless.bits' 9 rfl) (fun crc9 => ?_) (by returns) (by returns)
  refine Lossless.align rfl ?_
  refine Lossless.bind (m := 0) (·.user_data) (Lossless.bytes _) (fun user_data => ?_) (by returns) (by returns)
  refine Lossless.bind (m := 0) (·.message_crc32) (Lossless.bytes _) (fun message_crc32 => ?_) (by returns) (by returns)
  exact Lossless.pure rfl

open Dmr.Etsi in
theorem Etsi.DmrData.Rate1Unconfirmed.read_lossless : Lossless 0 (Etsi.DmrData.Rate1Unconfirmed.read) (Etsi.DmrData.Rate1Unconfirmed.read) 0 := by
  unfold Etsi.DmrData.Rate1Unconfirmed.read
  refine Lossless.bind (m := 0) (·.user_data) (Lossless.bytes _) (fun user_data => ?_) (by returns) (by returns)
  exact Lossless.pure rfl

open Dmr.Etsi in
theorem Etsi.DmrData.UdtLastBlock.read_lossless : Lossless 0 (Etsi.DmrData.UdtLastBlock.read) (Etsi.DmrData.UdtLastBlock.read) 0 := by
  unfold Etsi.DmrData.UdtLastBlock.read
  refine Lossless.bind (m := 0) (·.user_data) (Lossless.bytes _) (fun user_data => ?_) (by returns) (by returns)
  refine Lossless.bind (m := 0) (·.message_crc16) (Lossless.bytes _) (fun message_crc16 => ?_) (by returns) (by returns)
  exact Lossless.pure rfl

open Dmr.Etsi in
theorem Etsi.DmrData.Rate34Confirmed.read_lossless : Lossless 0 (Etsi.DmrData.Rate34Confirmed.read) (Etsi.DmrData.Rate34Confirmed.read) 0 := by
  unfold Etsi.DmrData.Rate34Confirmed.read
  refine Lossless.bind (m := 7) (·.data_block_serial_number) (Lossless.bits' 7 rfl) (fun data_block_serial_number => ?_) (by returns) (by returns)
  refine Lossless.bind (m := 0) (·.crc9) (Lossless.bits' 9 rfl) (fun crc9 => ?_) (by returns) (by returns)
  refine Lossless.align rfl ?_
  refine Lossless.bind (m := 0) (·.user_data) (Lossless.bytes _) (fun user_data => ?_) (by returns) (by returns)
  exact Lossless.pure rfl

open Dmr.Etsi in
theorem Etsi.DmrData.Rate34LastBlockConfirmed.read_lossless : Lossless 0 (Etsi.DmrData.Rate34LastBlockConfirmed.read) (Etsi.DmrData.Rate34LastBlockConfirmed.read) 0 := by
  unfold Etsi.DmrData.Rate34LastBlockConfirmed.read
  refine Lossless.bind (m := 7) (·.data_block_serial_number) (Lossless.bits' 7 rfl) (fun data_block_serial_number => ?_) (by returns) (by returns)
  refine Lossless.bind (m := 0) (·.crc9) (Lossless.bits' 9 rfl) (fun crc9 => ?_) (by returns) (by returns)
  refine Lossless.align rfl ?_
  refine Lossless.bind (m := 0) (·.user_data) (Lossless.bytes _) (fun user_data => ?_) (by returns) (by returns)
  refine Lossless.bind (m := 0) (·.message_crc32) (Lossless.bytes _) (fun message_crc32 => ?_) (by returns) (by returns)
  exact Lossless.pure rfl

open Dmr.Etsi in
theorem Etsi.DmrData.Rate34Unconfirmed.read_lossless : Lossless 0 (Etsi.DmrData.Rate34Unconfirmed.read) (Etsi.DmrData.Rate34Unconfirmed.read) 0 := by
  unfold Etsi.DmrData.Rate34Unconfirmed.read
  refine Lossless.bind (m := 0) (·.user_data) (Lossless.bytes _) (fun user_data => ?_) (by returns) (by returns)
  exact Lossless.pure rfl

open Dmr.Etsi in
theorem Etsi.DmrData.Rate12LastBlockUnconfirmed.read_lossless : Lossless 0 (Etsi.DmrData.Rate12LastBlockUnconfirmed.read) (Etsi.DmrData.Rate12LastBlockUnconfirmed.read) 0 := by
  unfold Etsi.DmrData.Rate12LastBlockUnconfirmed.read
  refine Lossless.bind (m := 0) (·.user_data) (Lossless.bytes _) (fun user_data => ?_) (by returns) (by returns)
  refine Lossless.bind (m := 0) (·.message_crc32) (Lossless.bytes _) (fun message_crc32 => ?_) (by returns) (by returns)
  exact Lossless.pure rfl

open Dmr.Etsi in
theorem Etsi.DmrData.Rate1Confirmed.read_lossless : Lossless 0 (Etsi.DmrData.Rate1Confirmed.read) (Etsi.DmrData.Rate1Confirmed.read) 0 := by
  unfold Etsi.DmrData.Rate1Confirmed.read
  refine Lossless.bind (m := 7) (·.data_block_serial_number) (Lossless.bits' 7 rfl) (fun data_block_serial_number => ?_) (by returns) (by returns)
  refine Lossless.bind (m := 0) (·.crc9) (Lossless.bits' 9 rfl) (fun crc9 => ?_) (by returns) (by returns)
  refine Lossless.align rfl ?_
  refine Lossless.bind (m := 0) (·.user_data) (Lossless.bytes _) (fun user_data => ?_) (by returns) (by returns)
  exact Lossless.pure rfl

open Dmr.Etsi in
theorem Etsi.DmrData.Rate12Unconfirmed.read_lossless : Lossless 0 (Etsi.DmrData.Rate12Unconfirmed.read) (Etsi.DmrData.Rate12Unconfirmed.read) 0 := by
  unfold Etsi.DmrData.Rate12Unconfirmed.read
  refine Lossless.bind (m := 0) (·.user_data) (Lossless.bytes _) (fun user_data => ?_) (by returns) (by returns)
  exact Lossless.pure rfl

open Dmr.Etsi in
theorem Etsi.DmrData.read_lossless : Lossless 0 (Etsi.DmrData.read) (Etsi.DmrData.read) 0 := by
  unfold Etsi.DmrData.read
  exact Lossless.pure rfl

open Dmr.Etsi in
theorem Etsi.DmrDataHeader.DataHeaderShortRaw.read_lossless : Lossless 0 (Etsi.DmrDataHeader.DataHeaderShortRaw.read) (Etsi.DmrDataHeader.DataHeaderShortRaw.read) 0 := by
  unfold Etsi.DmrDataHeader.DataHeaderShortRaw.read
  refine Lossless.bind (m := 1) (·.llid_destination_is_group) (Lossless.flag' rfl) (fun llid_destination_is_group => ?_) (by returns) (by returns)
  refine Lossless.bind (m := 2) (·.response_requested) (Lossless.flag' rfl) (fun response_requested => ?_) (by returns) (by returns)
  refine Lossless.bind (m := 4) (·.appended_blocks_msb) (Lossless.bits' 2 rfl) (fun appended_blocks_msb => ?_) (by returns) (by returns)
  refine Lossless.bind (m := 0) (·.format) (Lossless.asEnum (Lossless.bits' 4 rfl)) (fun format => ?_) (by returns) (by returns)
  refine Lossless.bind (m := 4) (·.sap_identifier) (Lossless.asEnum (Lossless.bits' 4 rfl)) (fun sap_identifier => ?_) (by returns) (by returns)
  refine Lossless.bind (m := 0) (·.appended_blocks_lsb) (Lossless.bits' 4 rfl) (fun appended_blocks_lsb => ?_) (by returns) (by returns)
  refine Lossless.bind (m := 0) (·.llid_destination) (Lossless.bits' 24 rfl) (fun llid_destination => ?_) (by returns) (by returns)
  refine Lossless.bind (m := 0) (·.llid_source) (Lossless.bits' 24 rfl) (fun llid_source => ?_) (by returns) (by returns)
  refine Lossless.bind (m := 3) (·.source_port) (Lossless.bits' 3 rfl) (fun source_port => ?_) (by returns) (by returns)
  refine Lossless.bind (m := 6) (·.destination_port) (Lossless.bits' 3 rfl) (fun destination_port => ?_) (by returns) (by returns)
  refine Lossless.bind (m := 7) (·.selective_automatic_repeat_request) (Lossless.flag' rfl) (fun selective_automatic_repeat_request => ?_) (by returns) (by returns)
  refine Lossless.bind (m := 0) (·.full_message_flag) (Lossless.flag' rfl) (fun full_message_flag => ?_) (by returns) (by returns)
  refine Lossless.bind (m := 0) (·.bit_padding) (Lossless.bits' 8 rfl) (fun bit_padding => ?_) (by returns) (by returns)
  refine Lossless.align rfl ?_
  refine Lossless.bind (m := 0) (·.crc) (Lossless.bytes _) (fun crc => ?_) (by returns) (by returns)
  exact Lossless.pure rfl

open Dmr.Etsi in
theorem Etsi.DmrDataHeader.DataHeaderProprietary.read_lossless : Lossless 0 (Etsi.DmrDataHeader.DataHeaderProprietary.read) (Etsi.DmrDataHeader.DataHeaderProprietary.read) 0 := by
  unfold Etsi.DmrDataHeader.DataHeaderProprietary.read
  refine Lossless.bind (m := 4) (·.sap_identifier) (Lossless.asEnum (Lossless.bits' 4 rfl)) (fun sap_identifier => ?_) (by returns) (by returns)
  refine Lossless.bind (m := 0) (·.format) (Lossless.asEnum (Lossless.bits' 4 rfl)) (fun format => ?_) (by returns) (by returns)
  refine Lossless.bind (m := 0) (·.mfid) (Lossless.bits' 8 rfl) (fun mfid => ?_) (by returns) (by returns)
  refine Lossless.align rfl ?_
  refine Lossless.bind (m := 0) (·.proprietary_data) (Lossless.bytes _) (fun proprietary_data => ?_) (by returns) (by returns)
  refine Lossless.bind (m := 0) (·.crc) (Lossless.bytes _) (fun crc => ?_) (by returns) (by returns)
  exact Lossless.pure rfl

open Dmr.Etsi in
theorem Etsi.DmrDataHeader.DataHeaderUndefined.read_lossless : Lossless 0 (Etsi.DmrDataHeader.DataHeaderUndefined.read) (Etsi.DmrDataHeader.DataHeaderUndefined.read) 0 := by
  unfold Etsi.DmrDataHeader.DataHeaderUndefined.read
  refine Lossless.bind (m := 0) (·.bytedata) Lossless.full (fun bytedata => ?_) (by returns) (by returns)
  exact Lossless.pure rfl

open Dmr.Etsi in
theorem Etsi.DmrDataHeader.DataHeaderShortStatusPrecoded.read_lossless : Lossless 0 (Etsi.DmrDataHeader.DataHeaderShortStatusPrecoded.read) (Etsi.DmrDataHeader.DataHeaderShortStatusPrecoded.read) 0 := by
  unfold Etsi.DmrDataHeader.DataHeaderShortStatusPrecoded.read
  refine Lossless.bind (m := 1) (·.llid_destination_is_group) (Lossless.flag' rfl) (fun llid_destination_is_group => ?_) (by returns) (by returns)
  refine Lossless.bind (m := 2) (·.response_requested) (Lossless.flag' rfl) (fun response_requested => ?_) (by returns) (by returns)
  refine Lossless.bind (m := 4) (·.appended_blocks_msb) (Lossless.bits' 2 rfl) (fun appended_blocks_msb => ?_) (by returns) (by returns)
  refine Lossless.bind (m := 0) (·.format) (Lossless.asEnum (Lossless.bits' 4 rfl)) (fun format => ?_) (by returns) (by returns)
  refine Lossless.bind (m := 4) (·.sap_identifier) (Lossless.asEnum (Lossless.bits' 4 rfl)) (fun sap_identifier => ?_) (by returns) (by returns)
  refine Lossless.bind (m := 0) (·.appended_blocks_lsb) (Lossless.bits' 4 rfl) (fun appended_blocks_lsb => ?_) (by returns) (by returns)
  refine Lossless.bind (m := 0) (·.llid_destination) (Lossless.bits' 24 rfl) (fun llid_destination => ?_) (by returns) (by returns)
  refine Lossless.bind (m := 0) (·.llid_source) (Lossless.bits' 24 rfl) (fun llid_source => ?_) (by returns) (by returns)
  refine Lossless.bind (m := 3) (·.source_port) (Lossless.bits' 3 rfl) (fun source_port => ?_) (by returns) (by returns)
  refine Lossless.bind (m := 6) (·.destination_port) (Lossless.bits' 3 rfl) (fun destination_port => ?_) (by returns) (by returns)
  refine Lossless.bind (m := 0) (·.status_precoded) (Lossless.bits' 10 rfl) (fun status_precoded => ?_) (by returns) (by returns)
  refine Lossless.align rfl ?_
  refine Lossless.bind (m := 0) (·.crc) (Lossless.bytes _) (fun crc => ?_) (by returns) (by returns)
  exact Lossless.pure rfl

open Dmr.Etsi in
theorem Etsi.DmrDataHeader.DataHeaderResponse.read_lossless : Lossless 0 (Etsi.DmrDataHeader.DataHeaderResponse.read) (Etsi.DmrDataHeader.DataHeaderResponse.read) 0 := by
  unfold Etsi.DmrDataHeader.DataHeaderResponse.read
  refine Lossless.bind (m := 1) (·.reserved1) (Lossless.flag' rfl) (fun reserved1 => ?_) (by returns) (by returns)
  refine Lossless.bind (m := 2) (·.response_requested) (Lossless.flag' rfl) (fun response_requested => ?_) (by returns) (by returns)
  refine Lossless.bind (m := 4) (·.reserved2) (Lossless.bits' 2 rfl) (fun reserved2 => ?_) (by returns) (by returns)
  refine Lossless.bind (m := 0) (·.format) (Lossless.asEnum (Lossless.bits' 4 rfl)) (fun format => ?_) (by returns) (by returns)
  refine Lossless.bind (m := 4) (·.sap_identifier) (Lossless.asEnum (Lossless.bits' 4 rfl)) (fun sap_identifier => ?_) (by returns) (by returns)
  refine Lossless.bind (m := 0) (·.reserved3) (Lossless.bits' 4 rfl) (fun reserved3 => ?_) (by returns) (by returns)
  refine Lossless.bind (m := 0) (·.llid_destination) (Lossless.bits' 24 rfl) (fun llid_destination => ?_) (by returns) (by returns)
  refine Lossless.bind (m := 0) (·.llid_source) (Lossless.bits' 24 rfl) (fun llid_source => ?_) (by returns) (by returns)
  refine Lossless.bind (m := 1) (·.full_message_flag) (Lossless.flag' rfl) (fun full_message_flag => ?_) (by returns) (by returns)
  refine Lossless.bind (m := 0) (·.blocks_to_follow) (Lossless.bits' 7 rfl) (fun blocks_to_follow => ?_) (by returns) (by returns)
  refine Lossless.bind (m := 2) (·.response_class) (Lossless.asEnum (Lossless.bits' 2 rfl)) (fun response_class => ?_) (by returns) (by returns)
  refine Lossless.bind (m := 5) (·.response_type) (Lossless.bits' 3 rfl) (fun response_type => ?_) (by returns) (by returns)
  refine Lossless.bind (m := 0) (·.response_status) (Lossless.bits' 3 rfl) (fun response_status => ?_) (by returns) (by returns)
  refine Lossless.align rfl ?_
  refine Lossless.bind (m := 0) (·.crc) (Lossless.bytes _) (fun crc => ?_) (by returns) (by returns)
  exact Lossless.pure rfl

open Dmr.Etsi in
theorem Etsi.DmrDataHeader.DataHeaderConfirmed.read_lossless : Lossless 0 (Etsi.DmrDataHeader.DataHeaderConfirmed.read) (Etsi.DmrDataHeader.DataHeaderConfirmed.read) 0 := by
  unfold Etsi.DmrDataHeader.DataHeaderConfirmed.read
  refine Lossless.bind (m := 1) (·.llid_destination_is_group) (Lossless.flag' rfl) (fun llid_destination_is_group => ?_) (by returns) (by returns)
  refine Lossless.bind (m := 2) (·.response_requested) (Lossless.flag' rfl) (fun response_requested => ?_) (by returns) (by returns)
  refine Lossless.bind (m := 3) (·.reserved1) (Lossless.flag' rfl) (fun reserved1 => ?_) (by returns) (by returns)
  refine Lossless.bind (m := 4) (·.pad_octet_count_msb) (Lossless.flag' rfl) (fun pad_octet_count_msb => ?_) (by returns) (by returns)
  refine Lossless.bind (m := 0) (·.format) (Lossless.asEnum (Lossless.bits' 4 rfl)) (fun format => ?_) (by returns) (by returns)
  refine Lossless.bind (m := 4) (·.sap_identifier) (Lossless.asEnum (Lossless.bits' 4 rfl)) (fun sap_identifier => ?_) (by returns) (by returns)
  refine Lossless.bind (m := 0) (·.pad_octet_count) (Lossless.bits' 4 rfl) (fun pad_octet_count => ?_) (by returns) (by returns)
  refine Lossless.bind (m := 0) (·.llid_destination) (Lossless.bits' 24 rfl) (fun llid_destination => ?_) (by returns) (by returns)
  refine Lossless.bind (m := 0) (·.llid_source) (Lossless.bits' 24 rfl) (fun llid_source => ?_) (by returns) (by returns)
  refine Lossless.bind (m := 1) (·.full_message_flag) (Lossless.flag' rfl) (fun full_message_flag => ?_) (by returns) (by returns)
  refine Lossless.bind (m := 0) (·.blocks_to_follow) (Lossless.bits' 7 rfl) (fun blocks_to_follow => ?_) (by returns) (by returns)
  refine Lossless.bind (m := 1) (·.resynchronize_flag) (Lossless.flag' rfl) (fun resynchronize_flag => ?_) (by returns) (by returns)
  refine Lossless.bind (m := 4) (·.send_sequence_number) (Lossless.bits' 3 rfl) (fun send_sequence_number => ?_) (by returns) (by returns)
  refine Lossless.bind (m := 0) (·.fragment_sequence_number) (Lossless.bits' 4 rfl) (fun fragment_sequence_number => ?_) (by returns) (by returns)
  refine Lossless.align rfl ?_
  refine Lossless.bind (m := 0) (·.crc) (Lossless.bytes _) (fun crc => ?_) (by returns) (by returns)
  exact Lossless.pure rfl

open Dmr.Etsi in
theorem Etsi.DmrDataHeader.DataHeaderUnconfirmed.read_lossless : Lossless 0 (Etsi.DmrDataHeader.DataHeaderUnconfirmed.read) (Etsi.DmrDataHeader.DataHeaderUnconfirmed.read) 0 := by
  unfold Etsi.DmrDataHeader.DataHeaderUnconfirmed.read
  refine Lossless.bind (m := 1) (·.llid_destination_is_group) (Lossless.flag' rfl) (fun llid_destination_is_group => ?_) (by returns) (by returns)
  refine Lossless.bind (m := 2) (·.response_requested) (Lossless.flag' rfl) (fun response_requested => ?_) (by returns) (by returns)
  refine Lossless.bind (m := 3) (·.reserved1) (Lossless.flag' rfl) (fun reserved1 => ?_) (by returns) (by returns)
  refine Lossless.bind (m := 4) (·.pad_octet_count_msb) (Lossless.flag' rfl) (fun pad_octet_count_msb => ?_) (by returns) (by returns)
  refine Lossless.bind (m := 0) (·.format) (Lossless.asEnum (Lossless.bits' 4 rfl)) (fun format => ?_) (by returns) (by returns)
  refine Lossless.bind (m := 4) (·.sap_identifier) (Lossless.asEnum (Lossless.bits' 4 rfl)) (fun sap_identifier => ?_) (by returns) (by returns)
  refine Lossless.bind (m := 0) (·.pad_octet_count) (Lossless.bits' 4 rfl) (fun pad_octet_count => ?_) (by returns) (by returns)
  refine Lossless.bind (m := 0) (·.llid_destination) (Lossless.bits' 24 rfl) (fun llid_destination => ?_) (by returns) (by returns)
  refine Lossless.bind (m := 0) (·.llid_source) (Lossless.bits' 24 rfl) (fun llid_source => ?_) (by returns) (by returns)
  refine Lossless.bind (m := 1) (·.full_message_flag) (Lossless.flag' rfl) (fun full_message_flag => ?_) (by returns) (by returns)
  refine Lossless.bind (m := 0) (·.blocks_to_follow) (Lossless.bits' 7 rfl) (fun blocks_to_follow => ?_) (by returns) (by returns)
  refine Lossless.bind (m := 4) (·.reserved2) (Lossless.bits' 4 rfl) (fun reserved2 => ?_) (by returns) (by returns)
  refine Lossless.bind (m := 0) (·.fragment_sequence_number) (Lossless.bits' 4 rfl) (fun fragment_sequence_number => ?_) (by returns) (by returns)
  refine Lossless.align rfl ?_
  refine Lossless.bind (m := 0) (·.crc) (Lossless.bytes _) (fun crc => ?_) (by returns) (by returns)
  exact Lossless.pure rfl

open Dmr.Etsi in
theorem Etsi.DmrDataHeader.DataHeaderShortDefined.read_lossless : Lossless 0 (Etsi.DmrDataHeader.DataHeaderShortDefined.read) (Etsi.DmrDataHeader.DataHeaderShortDefined.read) 0 := by
  unfold Etsi.DmrDataHeader.DataHeaderShortDefined.read
  refine Lossless.bind (m := 1) (·.llid_destination_is_group) (Lossless.flag' rfl) (fun llid_destination_is_group => ?_) (by returns) (by returns)
  refine Lossless.bind (m := 2) (·.response_requested) (Lossless.flag' rfl) (fun response_requested => ?_) (by returns) (by returns)
  refine Lossless.bind (m := 4) (·.appended_blocks_msb) (Lossless.bits' 2 rfl) (fun appended_blocks_msb => ?_) (by returns) (by returns)
  refine Lossless.bind (m := 0) (·.format) (Lossless.asEnum (Lossless.bits' 4 rfl)) (fun format => ?_) (by returns) (by returns)
  refine Lossless.bind (m := 4) (·.sap_identifier) (Lossless.asEnum (Lossless.bits' 4 rfl)) (fun sap_identifier => ?_) (by returns) (by returns)
  refine Lossless.bind (m := 0) (·.appended_blocks_lsb) (Lossless.bits' 4 rfl) (fun appended_blocks_lsb => ?_) (by returns) (by returns)
  refine Lossless.bind (m := 0) (·.llid_destination) (Lossless.bits' 24 rfl) (fun llid_destination => ?_) (by returns) (by returns)
  refine Lossless.bind (m := 0) (·.llid_source) (Lossless.bits' 24 rfl) (fun llid_source => ?_) (by returns) (by returns)
  refine Lossless.bind (m := 6) (·.defined_data) (Lossless.asEnum (Lossless.bits' 6 rfl)) (fun defined_data => ?_) (by returns) (by returns)
  refine Lossless.bind (m := 7) (·.selective_automatic_repeat_request) (Lossless.flag' rfl) (fun selective_automatic_repeat_request => ?_) (by returns) (by returns)
  refine Lossless.bind (m := 0) (·.full_message_flag) (Lossless.flag' rfl) (fun full_message_flag => ?_) (by returns) (by returns)
  refine Lossless.bind (m := 0) (·.bit_padding) (Lossless.bits' 8 rfl) (fun bit_padding => ?_) (by returns) (by returns)
  refine Lossless.align rfl ?_
  refine Lossless.bind (m := 0) (·.crc) (Lossless.bytes _) (fun crc => ?_) (by returns) (by returns)
  exact Lossless.pure rfl

open Dmr.Etsi in
theorem Etsi.DmrDataHeader.DataHeaderUdt.read_lossless : Lossless 0 (Etsi.DmrDataHeader.DataHeaderUdt.read) (Etsi.DmrDataHeader.DataHeaderUdt.read) 0 := by
  unfold Etsi.DmrDataHeader.DataHeaderUdt.read
  refine Lossless.bind (m := 1) (·.llid_destination_is_group) (Lossless.flag' rfl) (fun llid_destination_is_group => ?_) (by returns) (by returns)
  refine Lossless.bind (m := 2) (·.response_requested) (Lossless.flag' rfl) (fun response_requested => ?_) (by returns) (by returns)
  refine Lossless.bind (m := 4) (·.reserved1) (Lossless.bits' 2 rfl) (fun reserved1 => ?_) (by returns) (by returns)
  refine Lossless.bind (m := 0) (·.format) (Lossless.asEnum (Lossless.bits' 4 rfl)) (fun format => ?_) (by returns) (by returns)
  refine Lossless.bind (m := 4) (·.sap_identifier) (Lossless.asEnum (Lossless.bits' 4 rfl)) (fun sap_identifier => ?_) (by returns) (by returns)
  refine Lossless.bind (m := 0) (·.udt_format) (Lossless.asEnum (Lossless.bits' 4 rfl)) (fun udt_format => ?_) (by returns) (by returns)
  refine Lossless.bind (m := 0) (·.llid_destination) (Lossless.bits' 24 rfl) (fun llid_destination => ?_) (by returns) (by returns)
  refine Lossless.bind (m := 0) (·.llid_source) (Lossless.bits' 24 rfl) (fun llid_source => ?_) (by returns) (by returns)
  refine Lossless.bind (m := 5) (·.pad_nibble) (Lossless.bits' 5 rfl) (fun pad_nibble => ?_) (by returns) (by returns)
  refine Lossless.bind (m := 6) (·.reserved2) (Lossless.flag' rfl) (fun reserved2 => ?_) (by returns) (by returns)
  refine Lossless.bind (m := 0) (·.appended_blocks) (Lossless.bits' 2 rfl) (fun appended_blocks => ?_) (by returns) (by returns)
  refine Lossless.bind (m := 1) (·.supplementary_flag) (Lossless.flag' rfl) (fun supplementary_flag => ?_) (by returns) (by returns)
  refine Lossless.bind (m := 2) (·.protect_flag) (Lossless.flag' rfl) (fun protect_flag => ?_) (by returns) (by returns)
  refine Lossless.bind (m := 0) (·.udt_opcode) (Lossless.asEnum (Lossless.bits' 6 rfl)) (fun udt_opcode => ?_) (by returns) (by returns)
  refine Lossless.align rfl ?_
  refine Lossless.bind (m := 0) (·.crc) (Lossless.bytes _) (fun crc => ?_) (by returns) (by returns)
  exact Lossless.pure rfl

open Dmr.Etsi in
theorem Etsi.DmrDataHeader.read_lossless : Lossless 0 (Etsi.DmrDataHeader.read) (Etsi.DmrDataHeader.read) 0 := by
  unfold Etsi.DmrDataHeader.read
  refine Lossless.bind (m := 4) (·.skip4) (Lossless.bits' 4 rfl) (fun skip4 => ?_) (by returns) (by returns)
  refine Lossless.bind (m := 0) (·.data_packet_format) (Lossless.asEnum (Lossless.bits' 4 rfl)) (fun data_packet_format => ?_) (by returns) (by returns)
  exact Lossless.pure rfl

open Dmr.Etsi in
theorem Etsi.DmrDataHeader.readDataBody_lossless (on : EnumVal DmrDataHeader.DataPacketFormats) : Lossless 0 (Etsi.DmrDataHeader.readDataBody on) (Etsi.DmrDataHeader.readDataBody on) 0 := by
  unfold Etsi.DmrDataHeader.readDataBody
  refine Lossless.ite (fun _ => Lossless.map (Etsi.DmrDataHeader.DataHeaderProprietary.read_lossless) fun _ _ h => by injections) fun _ => ?_
  refine Lossless.ite (fun _ => Lossless.map (Etsi.DmrDataHeader.DataHeaderShortDefined.read_lossless) fun _ _ h => by injections) fun _ => ?_
  refine Lossless.ite (fun _ => Lossless.map (Etsi.DmrDataHeader.DataHeaderUnconfirmed.read_lossless) fun _ _ h => by injections) fun _ => ?_
  refine Lossless.ite (fun _ => Lossless.map (Etsi.DmrDataHeader.DataHeaderConfirmed.read_lossless) fun _ _ h => by injections) fun _ => ?_
  refine Lossless.ite (fun _ => Lossless.map (Etsi.DmrDataHeader.DataHeaderUdt.read_lossless) fun _ _ h => by injections) fun _ => ?_
  refine Lossless.ite (fun _ => Lossless.map (Etsi.DmrDataHeader.DataHeaderShortStatusPrecoded.read_lossless) fun _ _ h => by injections) fun _ => ?_
  refine Lossless.ite (fun _ => Lossless.map (Etsi.DmrDataHeader.DataHeaderResponse.read_lossless) fun _ _ h => by injections) fun _ => ?_
  exact Lossless.map (Etsi.DmrDataHeader.DataHeaderUndefined.read_lossless) fun _ _ h => by injections

open Dmr.Etsi in
theorem Etsi.DmrIpUdp.UdpIpv4CompressedHeader.read_lossless : Lossless 0 (Etsi.DmrIpUdp.UdpIpv4CompressedHeader.read) (Etsi.DmrIpUdp.UdpIpv4CompressedHeader.read) 0 := by
  unfold Etsi.DmrIpUdp.UdpIpv4CompressedHeader.read
  refine Lossless.bind (m := 0) (·.ipv4_identification) (Lossless.bytes _) (fun ipv4_identification => ?_) (by returns) (by returns)
  refine Lossless.bind (m := 4) (·.source_ip_address_id) (Lossless.asEnum (Lossless.bits' 4 rfl)) (fun source_ip_address_id => ?_) (by returns) (by returns)
  refine Lossless.bind (m := 0) (·.destination_ip_address_id) (Lossless.asEnum (Lossless.bits' 4 rfl)) (fun destination_ip_address_id => ?_) (by returns) (by returns)
  refine Lossless.bind (m := 1) (·.header_compression_opcode_msb) (Lossless.flag' rfl) (fun header_compression_opcode_msb => ?_) (by returns) (by returns)
  refine Lossless.bind (m := 0) (·.udp_source_port_id) (Lossless.asEnum (Lossless.bits' 7 rfl)) (fun udp_source_port_id => ?_) (by returns) (by returns)
  refine Lossless.bind (m := 1) (·.header_compression_opcode_lsb) (Lossless.flag' rfl) (fun header_compression_opcode_lsb => ?_) (by returns) (by returns)
  refine Lossless.bind (m := 0) (·.udp_destination_port_id) (Lossless.asEnum (Lossless.bits' 7 rfl)) (fun udp_destination_port_id => ?_) (by returns) (by returns)
  refine Lossless.align rfl ?_
  refine Lossless.bind (m := 0) (·.udp_source_port) (Lossless.optionally fun _ _ => (Lossless.bytes _)) (fun udp_source_port => ?_) (by returns) (by returns)
  refine Lossless.bind (m := 0) (·.udp_destination_port) (Lossless.optionally fun _ _ => (Lossless.bytes _)) (fun udp_destination_port => ?_) (by returns) (by returns)
  refine Lossless.bind (m := 0) (·.user_data) Lossless.full (fun user_data => ?_) (by returns) (by returns)
  exact Lossless.pure rfl

open Dmr.Etsi in
theorem Etsi.DmrIpUdp.read_lossless : Lossless 0 (Etsi.DmrIpUdp.read) (Etsi.DmrIpUdp.read) 0 := by
  unfold Etsi.DmrIpUdp.read
  exact Lossless.pure rfl

open Dmr.Etsi in
theorem Etsi.FullLinkControl.GpsInfoLcPdu.read_lossless : Lossless 0 (Etsi.FullLinkControl.GpsInfoLcPdu.read) (Etsi.FullLinkControl.GpsInfoLcPdu.read) 0 := by
  unfold Etsi.FullLinkControl.GpsInfoLcPdu.read
  refine Lossless.bind (m := 4) (·.reserved) (Lossless.bits' 4 rfl) (fun reserved => ?_) (by returns) (by returns)
  refine Lossless.bind (m := 7) (·.position_error) (Lossless.asEnum (Lossless.bits' 3 rfl)) (fun position_error => ?_) (by returns) (by returns)
  refine Lossless.bind (m := 0) (·.longitude) (Lossless.bits' 25 rfl) (fun longitude => ?_) (by returns) (by returns)
  refine Lossless.bind (m := 0) (·.latitude) (Lossless.bits' 24 rfl) (fun latitude => ?_) (by returns) (by returns)
  exact Lossless.pure rfl

open Dmr.Etsi in
theorem Etsi.FullLinkControl.GroupVoiceChannelUser.read_lossless : Lossless 0 (Etsi.FullLinkControl.GroupVoiceChannelUser.read) (Etsi.FullLinkControl.GroupVoiceChannelUser.read) 0 := by
  unfold Etsi.FullLinkControl.GroupVoiceChannelUser.read
  refine Lossless.bind (m := 0) (·.service_options) (Lossless.bits' 8 rfl) (fun service_options => ?_) (by returns) (by returns)
  refine Lossless.bind (m := 0) (·.group_address) (Lossless.bits' 24 rfl) (fun group_address => ?_) (by returns) (by returns)
  refine Lossless.bind (m := 0) (·.source_address) (Lossless.bits' 24 rfl) (fun source_address => ?_) (by returns) (by returns)
  exact Lossless.pure rfl

open Dmr.Etsi in
theorem Etsi.FullLinkControl.UnitToUnitVoiceChannelUser.read_lossless : Lossless 0 (Etsi.FullLinkControl.UnitToUnitVoiceChannelUser.read) (Etsi.FullLinkControl.UnitToUnitVoiceChannelUser.read) 0 := by
  unfold Etsi.FullLinkControl.UnitToUnitVoiceChannelUser.read
  refine Lossless.bind (m := 0) (·.service_options) (Lossless.bits' 8 rfl) (fun service_options => ?_) (by returns) (by returns)
  refine Lossless.bind (m := 0) (·.target_address) (Lossless.bits' 24 rfl) (fun target_address => ?_) (by returns) (by returns)
  refine Lossless.bind (m := 0) (·.source_address) (Lossless.bits' 24 rfl) (fun source_address => ?_) (by returns) (by returns)
  exact Lossless.pure rfl

open Dmr.Etsi in
theorem Etsi.FullLinkControl.TalkerAliasHeader.read_lossless : Lossless 0 (Etsi.FullLinkControl.TalkerAliasHeader.read) (Etsi.FullLinkControl.TalkerAliasHeader.read) 0 := by
  unfold Etsi.FullLinkControl.TalkerAliasHeader.read
  refine Lossless.bind (m := 2) (·.talker_alias_data_format) (Lossless.asEnum (Lossless.bits' 2 rfl)) (fun talker_alias_data_format => ?_) (by returns) (by returns)
  refine Lossless.bind (m := 7) (·.talker_alias_data_length) (Lossless.bits' 5 rfl) (fun talker_alias_data_length => ?_) (by returns) (by returns)
  refine Lossless.bind (m := 0) (·.talker_alias_data) (Lossless.bits' 49 rfl) (fun talker_alias_data => ?_) (by returns) (by returns)
  exact Lossless.pure rfl

open Dmr.Etsi in
theorem Etsi.FullLinkControl.TalkerAliasContinuation.read_lossless : Lossless 0 (Etsi.FullLinkControl.TalkerAliasContinuation.read) (Etsi.FullLinkControl.TalkerAliasContinuation.read) 0 := by
  unfold Etsi.FullLinkControl.TalkerAliasContinuation.read
  refine Lossless.bind (m := 0) (·.talker_alias_data) (Lossless.bits' 56 rfl) (fun talker_alias_data => ?_) (by returns) (by returns)
  exact Lossless.pure rfl

open Dmr.Etsi in
theorem Etsi.FullLinkControl.readSpecificData_lossless (on : EnumVal FullLinkControl.Flcos) : Lossless 0 (Etsi.FullLinkControl.readSpecificData on) (Etsi.FullLinkControl.readSpecificData on) 0 := by
  unfold Etsi.FullLinkControl.readSpecificData
  refine Lossless.ite (fun _ => Lossless.map (Etsi.FullLinkControl.TalkerAliasHeader.read_lossless) fun _ _ h => by injections) fun _ => ?_
  refine Lossless.ite (fun _ => Lossless.map (Etsi.FullLinkControl.UnitToUnitVoiceChannelUser.read_lossless) fun _ _ h => by injections) fun _ => ?_
  refine Lossless.ite (fun _ => Lossless.map (Etsi.FullLinkControl.GroupVoiceChannelUser.read_lossless) fun _ _ h => by injections) fun _ => ?_
  refine Lossless.ite (fun _ => Lossless.map (Etsi.FullLinkControl.TalkerAliasContinuation.read_lossless) fun _ _ h => by injections) fun _ => ?_
  refine Lossless.ite (fun _ => Lossless.map (Etsi.FullLinkControl.TalkerAliasContinuation.read_lossless) fun _ _ h => by injections) fun _ => ?_
  refine Lossless.ite (fun _ => Lossless.map (Etsi.FullLinkControl.TalkerAliasContinuation.read_lossless) fun _ _ h => by injections) fun _ => ?_
  refine Lossless.ite (fun _ => Lossless.map (Etsi.FullLinkControl.GpsInfoLcPdu.read_lossless) fun _ _ h => by injections) fun _ => ?_
  exact Lossless.pure rfl

open Dmr.Homebrew in
theorem Homebrew.Homebrew2015.TypeMasterPing.read_lossless : Lossless 0 (Homebrew.Homebrew2015.TypeMasterPing.read) (Homebrew.Homebrew2015.TypeMasterPing.read) 0 := by
  unfold Homebrew.Homebrew2015.TypeMasterPing.read
  refine Lossless.bind (m := 0) (·.magic) (Lossless.bytes _) (fun magic => ?_) (by returns) (by returns)
  refine Lossless.validate ?_
  refine Lossless.bind (m := 0) (·.repeater_id) Lossless.u4be (fun repeater_id => ?_) (by returns) (by returns)
  exact Lossless.pure rfl

open Dmr.Homebrew in
theorem Homebrew.Homebrew2015.TypeRepeaterPong.read_lossless : Lossless 0 (Homebrew.Homebrew2015.TypeRepeaterPong.read) (Homebrew.Homebrew2015.TypeRepeaterPong.read) 0 := by
  unfold Homebrew.Homebrew2015.TypeRepeaterPong.read
  refine Lossless.bind (m := 0) (·.magic) (Lossless.bytes _) (fun magic => ?_) (by returns) (by returns)
  refine Lossless.validate ?_
  refine Lossless.bind (m := 0) (·.repeater_id) Lossless.u4be (fun repeater_id => ?_) (by returns) (by returns)
  exact Lossless.pure rfl

open Dmr.Homebrew in
theorem Homebrew.Homebrew2015.TypeRepeaterClosing.read_lossless : Lossless 0 (Homebrew.Homebrew2015.TypeRepeaterClosing.read) (Homebrew.Homebrew2015.TypeRepeaterClosing.read) 0 := by
  unfold Homebrew.Homebrew2015.TypeRepeaterClosing.read
  refine Lossless.bind (m := 0) (·.magic) (Lossless.bytes _) (fun magic => ?_) (by returns) (by returns)
  refine Lossless.validate ?_
  refine Lossless.bind (m := 0) (·.repeater_id) Lossless.u4be (fun repeater_id => ?_) (by returns) (by returns)
  exact Lossless.pure rfl

open Dmr.Homebrew in
theorem Homebrew.Homebrew2015.TypeRepeaterConfiguration.read_lossless : Lossless 0 (Homebrew.Homebrew2015.TypeRepeaterConfiguration.read) (Homebrew.Homebrew2015.TypeRepeaterConfiguration.read) 0 := by
  unfold Homebrew.Homebrew2015.TypeRepeaterConfiguration.read
  refine Lossless.bind (m := 0) (·.repeater_id) Lossless.u4be (fun repeater_id => ?_) (by returns) (by returns)
  refine Lossless.bind (m := 0) (·.call_sign) (Lossless.decodeWith (Lossless.bytes _) decodeAscii_inj) (fun call_sign => ?_) (by returns) (by returns)
  refine Lossless.bind (m := 0) (·.rx_freq) (Lossless.decodeWith (Lossless.bytes _) decodeAscii_inj) (fun rx_freq => ?_) (by returns) (by returns)
  refine Lossless.bind (m := 0) (·.tx_freq) (Lossless.decodeWith (Lossless.bytes _) decodeAscii_inj) (fun tx_freq => ?_) (by returns) (by returns)
  refine Lossless.bind (m := 0) (·.tx_power) (Lossless.decodeWith (Lossless.bytes _) decodeAscii_inj) (fun tx_power => ?_) (by returns) (by returns)
  refine Lossless.bind (m := 0) (·.color_code) (Lossless.decodeWith (Lossless.bytes _) decodeAscii_inj) (fun color_code => ?_) (by returns) (by returns)
  refine Lossless.bind (m := 0) (·.latitude) (Lossless.decodeWith (Lossless.bytes _) decodeAscii_inj) (fun latitude => ?_) (by returns) (by returns)
  refine Lossless.bind (m := 0) (·.longitude) (Lossless.decodeWith (Lossless.bytes _) decodeAscii_inj) (fun longitude => ?_) (by returns) (by returns)
  refine Lossless.bind (m := 0) (·.antenna_height_above_ground) (Lossless.decodeWith (Lossless.bytes _) decodeAscii_inj) (fun antenna_height_above_ground => ?_) (by returns) (by returns)
  refine Lossless.bind (m := 0) (·.location) (Lossless.decodeWith (Lossless.bytes _) decodeAscii_inj) (fun location => ?_) (by returns) (by returns)
  refine Lossless.bind (m := 0) (·.description) (Lossless.decodeWith (Lossless.bytes _) decodeAscii_inj) (fun description => ?_) (by returns) (by returns)
  refine Lossless.bind (m := 0) (·.url) (Lossless.decodeWith (Lossless.bytes _) decodeAscii_inj) (fun url => ?_) (by returns) (by returns)
  refine Lossless.bind (m := 0) (·.software_id) (Lossless.decodeWith (Lossless.bytes _) decodeAscii_inj) (fun software_id => ?_) (by returns) (by returns)
  refine Lossless.bind (m := 0) (·.package_id) (Lossless.decodeWith (Lossless.bytes _) decodeAscii_inj) (fun package_id => ?_) (by returns) (by returns)
  refine Lossless.bind (m := 0) (·.unparsed_data) (Lossless.decodeWith Lossless.full decodeAscii_inj) (fun unparsed_data => ?_) (by returns) (by returns)
  exact Lossless.pure rfl

open Dmr.Homebrew in
theorem Homebrew.Homebrew2015.TypeRepeaterConfigurationOrClosing.readData_lossless (on : PyStr) : Lossless 0 (Homebrew.Homebrew2015.TypeRepeaterConfigurationOrClosing.readData on) (Homebrew.Homebrew2015.TypeRepeaterConfigurationOrClosing.readData on) 0 := by
  unfold Homebrew.Homebrew2015.TypeRepeaterConfigurationOrClosing.readData
  refine Lossless.ite (fun _ => Lossless.map (Homebrew.Homebrew2015.TypeRepeaterClosing.read_lossless) fun _ _ h => by injections) fun _ => ?_
  exact Lossless.map (Homebrew.Homebrew2015.TypeRepeaterConfiguration.read_lossless) fun _ _ h => by injections

open Dmr.Homebrew in
theorem Homebrew.Homebrew2015.TypeRepeaterConfigurationOrClosing.read_lossless : Lossless 0 (Homebrew.Homebrew2015.TypeRepeaterConfigurationOrClosing.read) (Homebrew.Homebrew2015.TypeRepeaterConfigurationOrClosing.read) 0 := by
  unfold Homebrew.Homebrew2015.TypeRepeaterConfigurationOrClosing.read
  have hs : Silent Homebrew2015.computeFifthLetter := Silent.peek 4 (Bytewise.bytes 1).decodeWith
  refine Lossless.peek hs hs fun on on' => ?_
  refine Lossless.bind (m := 0) (·.data) ?_ (fun _ => Lossless.pure rfl) (by returns) (by returns)
  unfold Homebrew2015.TypeRepeaterConfigurationOrClosing.readData
  repeat' split
  · exact Lossless.map Homebrew.Homebrew2015.TypeRepeaterClosing.read_lossless fun _ _ h => by injections
  · exact Lossless.clash (P := fun x => ∃ y, x = .typeRepeaterClosing y) (Returns.bind fun _ => Returns.pure ⟨_, rfl⟩) (Returns.bind fun _ => Returns.pure (by simp))
  · exact Lossless.clash (P := fun x => ∃ y, x = .typeRepeaterConfiguration y) (Returns.bind fun _ => Returns.pure ⟨_, rfl⟩) (Returns.bind fun _ => Returns.pure (by simp))
  · exact Lossless.map Homebrew.Homebrew2015.TypeRepeaterConfiguration.read_lossless fun _ _ h => by injections

open Dmr.Homebrew in
theorem Homebrew.Homebrew2015.TypeRepeaterLoginResponse.read_lossless : Lossless 0 (Homebrew.Homebrew2015.TypeRepeaterLoginResponse.read) (Homebrew.Homebrew2015.TypeRepeaterLoginResponse.read) 0 := by
  unfold Homebrew.Homebrew2015.TypeRepeaterLoginResponse.read
  refine Lossless.bind (m := 0) (·.repeater_id) Lossless.u4be (fun repeater_id => ?_) (by returns) (by returns)
  refine Lossless.bind (m := 0) (·.sha256) (Lossless.bytes _) (fun sha256 => ?_) (by returns) (by returns)
  exact Lossless.pure rfl

open Dmr.Homebrew in
theorem Homebrew.Homebrew2015.TypeRepeaterLoginRequest.read_lossless : Lossless 0 (Homebrew.Homebrew2015.TypeRepeaterLoginRequest.read) (Homebrew.Homebrew2015.TypeRepeaterLoginRequest.read) 0 := by
  unfold Homebrew.Homebrew2015.TypeRepeaterLoginRequest.read
  refine Lossless.bind (m := 0) (·.repeater_id) Lossless.u4be (fun repeater_id => ?_) (by returns) (by returns)
  exact Lossless.pure rfl

open Dmr.Homebrew in
theorem Homebrew.Homebrew2015.TypeMasterNotAccept.read_lossless : Lossless 0 (Homebrew.Homebrew2015.TypeMasterNotAccept.read) (Homebrew.Homebrew2015.TypeMasterNotAccept.read) 0 := by
  unfold Homebrew.Homebrew2015.TypeMasterNotAccept.read
  refine Lossless.bind (m := 0) (·.magic) (Lossless.bytes _) (fun magic => ?_) (by returns) (by returns)
  refine Lossless.validate ?_
  refine Lossless.bind (m := 0) (·.repeater_id) Lossless.u4be (fun repeater_id => ?_) (by returns) (by returns)
  exact Lossless.pure rfl

open Dmr.Homebrew in
theorem Homebrew.Homebrew2015.TypeMasterRepeaterAck.read_lossless : Lossless 0 (Homebrew.Homebrew2015.TypeMasterRepeaterAck.read) (Homebrew.Homebrew2015.TypeMasterRepeaterAck.read) 0 := by
  unfold Homebrew.Homebrew2015.TypeMasterRepeaterAck.read
  refine Lossless.bind (m := 0) (·.magictype_master_repeater_ack) (Lossless.bytes _) (fun magictype_master_repeater_ack => ?_) (by returns) (by returns)
  refine Lossless.validate ?_
  refine Lossless.bind (m := 0) (·.repeater_id) Lossless.u4be (fun repeater_id => ?_) (by returns) (by returns)
  refine Lossless.isEof fun eof1 eof1' => ?_
  refine Lossless.bind (m := 0) (·.random_number) (Lossless.optionally fun _ _ => Lossless.u4be) (fun random_number => ?_) (by returns) (by returns)
  exact Lossless.pure rfl

open Dmr.Homebrew in
theorem Homebrew.Homebrew2015.TypeMasterClosing.read_lossless : Lossless 0 (Homebrew.Homebrew2015.TypeMasterClosing.read) (Homebrew.Homebrew2015.TypeMasterClosing.read) 0 := by
  unfold Homebrew.Homebrew2015.TypeMasterClosing.read
  refine Lossless.bind (m := 0) (·.magic) (Lossless.bytes _) (fun magic => ?_) (by returns) (by returns)
  refine Lossless.validate ?_
  refine Lossless.bind (m := 0) (·.repeater_id) Lossless.u4be (fun repeater_id => ?_) (by returns) (by returns)
  exact Lossless.pure rfl

open Dmr.Homebrew in
theorem Homebrew.Homebrew2015.TypeDmrData.read_lossless : Lossless 0 (Homebrew.Homebrew2015.TypeDmrData.read) (Homebrew.Homebrew2015.TypeDmrData.read) 0 := by
  unfold Homebrew.Homebrew2015.TypeDmrData.read
  refine Lossless.bind (m := 0) (·.sequence_no) Lossless.u1 (fun sequence_no => ?_) (by returns) (by returns)
  refine Lossless.bind (m := 0) (·.source_id) (Lossless.bits' 24 rfl) (fun source_id => ?_) (by returns) (by returns)
  refine Lossless.bind (m := 0) (·.target_id) (Lossless.bits' 24 rfl) (fun target_id => ?_) (by returns) (by returns)
  refine Lossless.align rfl ?_
  refine Lossless.bind (m := 0) (·.repeater_id) Lossless.u4be (fun repeater_id => ?_) (by returns) (by returns)
  refine Lossless.bind (m := 1) (·.slot_no) (Lossless.asEnum (Lossless.bits' 1 rfl)) (fun slot_no => ?_) (by returns) (by returns)
  refine Lossless.bind (m := 2) (·.call_type) (Lossless.asEnum (Lossless.bits' 1 rfl)) (fun call_type => ?_) (by returns) (by returns)
  refine Lossless.bind (m := 4) (·.frame_type) (Lossless.asEnum (Lossless.bits' 2 rfl)) (fun frame_type => ?_) (by returns) (by returns)
  refine Lossless.bind (m := 0) (·.data_type) (Lossless.bits' 4 rfl) (fun data_type => ?_) (by returns) (by returns)
  refine Lossless.align rfl ?_
  refine Lossless.bind (m := 0) (·.stream_id) Lossless.u4be (fun stream_id => ?_) (by returns) (by returns)
  refine Lossless.bind (m := 0) (·.dmr_data) (Lossless.bytes _) (fun dmr_data => ?_) (by returns) (by returns)
  refine Lossless.isEof fun eof1 eof1' => ?_
  refine Lossless.bind (m := 0) (·.bit_error_rate) (Lossless.optionally fun _ _ => Lossless.u1) (fun bit_error_rate => ?_) (by returns) (by returns)
  refine Lossless.isEof fun eof2 eof2' => ?_
  refine Lossless.bind (m := 0) (·.rssi) (Lossless.optionally fun _ _ => Lossless.u1) (fun rssi => ?_) (by returns) (by returns)
  exact Lossless.pure rfl

open Dmr.Homebrew in
theorem Homebrew.Homebrew2015.TypeRepeaterOptions.read_lossless : Lossless 0 (Homebrew.Homebrew2015.TypeRepeaterOptions.read) (Homebrew.Homebrew2015.TypeRepeaterOptions.read) 0 := by
  unfold Homebrew.Homebrew2015.TypeRepeaterOptions.read
  refine Lossless.bind (m := 0) (·.repeater_id) Lossless.u4be (fun repeater_id => ?_) (by returns) (by returns)
  refine Lossless.bind (m := 0) (·.options) (Lossless.decodeWith Lossless.full decodeAscii_inj) (fun options => ?_) (by returns) (by returns)
  exact Lossless.pure rfl

open Dmr.Homebrew in
theorem Homebrew.Homebrew2015.readCommandData_lossless (on : PyStr) : Lossless 0 (Homebrew.Homebrew2015.readCommandData on) (Homebrew.Homebrew2015.readCommandData on) 0 := by
  unfold Homebrew.Homebrew2015.readCommandData
  refine Lossless.ite (fun _ => Lossless.map (Homebrew.Homebrew2015.TypeRepeaterLoginRequest.read_lossless) fun _ _ h => by injections) fun _ => ?_
  refine Lossless.ite (fun _ => Lossless.map (Homebrew.Homebrew2015.TypeMasterRepeaterAck.read_lossless) fun _ _ h => by injections) fun _ => ?_
  refine Lossless.ite (fun _ => Lossless.map (Homebrew.Homebrew2015.TypeRepeaterLoginResponse.read_lossless) fun _ _ h => by injections) fun _ => ?_
  refine Lossless.ite (fun _ => Lossless.map (Homebrew.Homebrew2015.TypeRepeaterConfigurationOrClosing.read_lossless) fun _ _ h => by injections) fun _ => ?_
  refine Lossless.ite (fun _ => Lossless.map (Homebrew.Homebrew2015.TypeDmrData.read_lossless) fun _ _ h => by injections) fun _ => ?_
  refine Lossless.ite (fun _ => Lossless.map (Homebrew.Homebrew2015.TypeMasterClosing.read_lossless) fun _ _ h => by injections) fun _ => ?_
  refine Lossless.ite (fun _ => Lossless.map (Homebrew.Homebrew2015.TypeRepeaterPong.read_lossless) fun _ _ h => by injections) fun _ => ?_
  refine Lossless.ite (fun _ => Lossless.map (Homebrew.Homebrew2015.TypeMasterPing.read_lossless) fun _ _ h => by injections) fun _ => ?_
  refine Lossless.ite (fun _ => Lossless.map (Homebrew.Homebrew2015.TypeMasterNotAccept.read_lossless) fun _ _ h => by injections) fun _ => ?_
  exact Lossless.pure rfl

open Dmr.Homebrew in
theorem Homebrew.Homebrew2015.read_lossless : Lossless 0 (Homebrew.Homebrew2015.read) (Homebrew.Homebrew2015.read) 0 := by
  unfold Homebrew.Homebrew2015.read
  refine Lossless.bind (m := 0) (·.command_prefix) (Lossless.decodeWith (Lossless.bytes _) decodeUtf8_inj) (fun command_prefix => ?_) (by returns) (by returns)
  refine Lossless.bind (m := 0) (·.command_data) (Homebrew.Homebrew2015.readCommandData_lossless _) (fun command_data => ?_) (by returns) (by returns)
  exact Lossless.pure rfl

open Dmr.Homebrew in
theorem Homebrew.Mmdvm2020.TypeMasterPong.read_lossless : Lossless 0 (Homebrew.Mmdvm2020.TypeMasterPong.read) (Homebrew.Mmdvm2020.TypeMasterPong.read) 0 := by
  unfold Homebrew.Mmdvm2020.TypeMasterPong.read
  refine Lossless.bind (m := 0) (·.magic) (Lossless.bytes _) (fun magic => ?_) (by returns) (by returns)
  refine Lossless.validate ?_
  refine Lossless.bind (m := 0) (·.repeater_id) Lossless.u4be (fun repeater_id => ?_) (by returns) (by returns)
  exact Lossless.pure rfl

open Dmr.Homebrew in
theorem Homebrew.Mmdvm2020.TypeRadioPosition.read_lossless : Lossless 0 (Homebrew.Mmdvm2020.TypeRadioPosition.read) (Homebrew.Mmdvm2020.TypeRadioPosition.read) 0 := by
  unfold Homebrew.Mmdvm2020.TypeRadioPosition.read
  refine Lossless.bind (m := 0) (·.radio_id) (Lossless.bits' 24 rfl) (fun radio_id => ?_) (by returns) (by returns)
  refine Lossless.bind (m := 4) (·.reserved) (Lossless.bits' 4 rfl) (fun reserved => ?_) (by returns) (by returns)
  refine Lossless.bind (m := 7) (·.position_error) (Lossless.asEnum (Lossless.bits' 3 rfl)) (fun position_error => ?_) (by returns) (by returns)
  refine Lossless.bind (m := 0) (·.longitude) (Lossless.bits' 25 rfl) (fun longitude => ?_) (by returns) (by returns)
  refine Lossless.bind (m := 0) (·.latitude) (Lossless.bits' 24 rfl) (fun latitude => ?_) (by returns) (by returns)
  exact Lossless.pure rfl

open Dmr.Homebrew in
theorem Homebrew.Mmdvm2020.TypeTalkerAlias.read_lossless : Lossless 0 (Homebrew.Mmdvm2020.TypeTalkerAlias.read) (Homebrew.Mmdvm2020.TypeTalkerAlias.read) 0 := by
  unfold Homebrew.Mmdvm2020.TypeTalkerAlias.read
  refine Lossless.bind (m := 0) (·.radio_id) (Lossless.bits' 24 rfl) (fun radio_id => ?_) (by returns) (by returns)
  refine Lossless.align rfl ?_
  refine Lossless.bind (m := 0) (·.talker_alias_type) (Lossless.asEnum Lossless.u1) (fun talker_alias_type => ?_) (by returns) (by returns)
  refine Lossless.bind (m := 0) (·.talker_alias) (Lossless.decodeWith (Lossless.bytes _) decodeAscii_inj) (fun talker_alias => ?_) (by returns) (by returns)
  exact Lossless.pure rfl

open Dmr.Homebrew in
theorem Homebrew.Mmdvm2020.TypeRepeaterClosing.read_lossless : Lossless 0 (Homebrew.Mmdvm2020.TypeRepeaterClosing.read) (Homebrew.Mmdvm2020.TypeRepeaterClosing.read) 0 := by
  unfold Homebrew.Mmdvm2020.TypeRepeaterClosing.read
  refine Lossless.bind (m := 0) (·.magic) (Lossless.bytes _) (fun magic => ?_) (by returns) (by returns)
  refine Lossless.validate ?_
  refine Lossless.bind (m := 0) (·.repeater_id) Lossless.u4be (fun repeater_id => ?_) (by returns) (by returns)
  exact Lossless.pure rfl

open Dmr.Homebrew in
theorem Homebrew.Mmdvm2020.TypeRepeaterConfiguration.read_lossless : Lossless 0 (Homebrew.Mmdvm2020.TypeRepeaterConfiguration.read) (Homebrew.Mmdvm2020.TypeRepeaterConfiguration.read) 0 := by
  unfold Homebrew.Mmdvm2020.TypeRepeaterConfiguration.read
  refine Lossless.bind (m := 0) (·.repeater_id) Lossless.u4be (fun repeater_id => ?_) (by returns) (by returns)
  refine Lossless.bind (m := 0) (·.call_sign) (Lossless.decodeWith (Lossless.bytes _) decodeAscii_inj) (fun call_sign => ?_) (by returns) (by returns)
  refine Lossless.bind (m := 0) (·.rx_freq) (Lossless.decodeWith (Lossless.bytes _) decodeAscii_inj) (fun rx_freq => ?_) (by returns) (by returns)
  refine Lossless.bind (m := 0) (·.tx_freq) (Lossless.decodeWith (Lossless.bytes _) decodeAscii_inj) (fun tx_freq => ?_) (by returns) (by returns)
  refine Lossless.bind (m := 0) (·.tx_power) (Lossless.decodeWith (Lossless.bytes _) decodeAscii_inj) (fun tx_power => ?_) (by returns) (by returns)
  refine Lossless.bind (m := 0) (·.color_code) (Lossless.decodeWith (Lossless.bytes _) decodeAscii_inj) (fun color_code => ?_) (by returns) (by returns)
  refine Lossless.bind (m := 0) (·.latitude) (Lossless.decodeWith (Lossless.bytes _) decodeAscii_inj) (fun latitude => ?_) (by returns) (by returns)
  refine Lossless.bind (m := 0) (·.longitude) (Lossless.decodeWith (Lossless.bytes _) decodeAscii_inj) (fun longitude => ?_) (by returns) (by returns)
  refine Lossless.bind (m := 0) (·.antenna_height_above_ground) (Lossless.decodeWith (Lossless.bytes _) decodeAscii_inj) (fun antenna_height_above_ground => ?_) (by returns) (by returns)
  refine Lossless.bind (m := 0) (·.location) (Lossless.decodeWith (Lossless.bytes _) decodeAscii_inj) (fun location => ?_) (by returns) (by returns)
  refine Lossless.bind (m := 0) (·.description) (Lossless.decodeWith (Lossless.bytes _) decodeAscii_inj) (fun description => ?_) (by returns) (by returns)
  refine Lossless.bind (m := 0) (·.slots) (Lossless.decodeWith (Lossless.bytes _) decodeAscii_inj) (fun slots => ?_) (by returns) (by returns)
  refine Lossless.bind (m := 0) (·.url) (Lossless.decodeWith (Lossless.bytes _) decodeAscii_inj) (fun url => ?_) (by returns) (by returns)
  refine Lossless.bind (m := 0) (·.software_id) (Lossless.decodeWith (Lossless.bytes _) decodeAscii_inj) (fun software_id => ?_) (by returns) (by returns)
  refine Lossless.bind (m := 0) (·.package_id) (Lossless.decodeWith (Lossless.bytes _) decodeAscii_inj) (fun package_id => ?_) (by returns) (by returns)
  refine Lossless.bind (m := 0) (·.unparsed_data) (Lossless.decodeWith Lossless.full decodeAscii_inj) (fun unparsed_data => ?_) (by returns) (by returns)
  exact Lossless.pure rfl

open Dmr.Homebrew in
theorem Homebrew.Mmdvm2020.TypeRepeaterConfigurationOrClosing.readData_lossless (on : PyStr) : Lossless 0 (Homebrew.Mmdvm2020.TypeRepeaterConfigurationOrClosing.readData on) (Homebrew.Mmdvm2020.TypeRepeaterConfigurationOrClosing.readData on) 0 := by
  unfold Homebrew.Mmdvm2020.TypeRepeaterConfigurationOrClosing.readData
  refine Lossless.ite (fun _ => Lossless.map (Homebrew.Mmdvm2020.TypeRepeaterClosing.read_lossless) fun _ _ h => by injections) fun _ => ?_
  exact Lossless.map (Homebrew.Mmdvm2020.TypeRepeaterConfiguration.read_lossless) fun _ _ h => by injections

open Dmr.Homebrew in
theorem Homebrew.Mmdvm2020.TypeRepeaterConfigurationOrClosing.read_lossless : Lossless 0 (Homebrew.Mmdvm2020.TypeRepeaterConfigurationOrClosing.read) (Homebrew.Mmdvm2020.TypeRepeaterConfigurationOrClosing.read) 0 := by
  unfold Homebrew.Mmdvm2020.TypeRepeaterConfigurationOrClosing.read
  have hs : Silent Mmdvm2020.computeFifthLetter := Silent.peek 4 (Bytewise.bytes 1).decodeWith
  refine Lossless.peek hs hs fun on on' => ?_
  refine Lossless.bind (m := 0) (·.data) ?_ (fun _ => Lossless.pure rfl) (by returns) (by returns)
  unfold Mmdvm2020.TypeRepeaterConfigurationOrClosing.readData
  repeat' split
  · exact Lossless.map Homebrew.Mmdvm2020.TypeRepeaterClosing.read_lossless fun _ _ h => by injections
  · exact Lossless.clash (P := fun x => ∃ y, x = .typeRepeaterClosing y) (Returns.bind fun _ => Returns.pure ⟨_, rfl⟩) (Returns.bind fun _ => Returns.pure (by simp))
  · exact Lossless.clash (P := fun x => ∃ y, x = .typeRepeaterConfiguration y) (Returns.bind fun _ => Returns.pure ⟨_, rfl⟩) (Returns.bind fun _ => Returns.pure (by simp))
  · exact Lossless.map Homebrew.Mmdvm2020.TypeRepeaterConfiguration.read_lossless fun _ _ h => by injections

open Dmr.Homebrew in
theorem Homebrew.Mmdvm2020.TypeRepeaterLoginResponse.read_lossless : Lossless 0 (Homebrew.Mmdvm2020.TypeRepeaterLoginResponse.read) (Homebrew.Mmdvm2020.TypeRepeaterLoginResponse.read) 0 := by
  unfold Homebrew.Mmdvm2020.TypeRepeaterLoginResponse.read
  refine Lossless.bind (m := 0) (·.repeater_id) Lossless.u4be (fun repeater_id => ?_) (by returns) (by returns)
  refine Lossless.bind (m := 0) (·.sha256) (Lossless.bytes _) (fun sha256 => ?_) (by returns) (by returns)
  exact Lossless.pure rfl

open Dmr.Homebrew in
theorem Homebrew.Mmdvm2020.TypeRepeaterLoginRequest.read_lossless : Lossless 0 (Homebrew.Mmdvm2020.TypeRepeaterLoginRequest.read) (Homebrew.Mmdvm2020.TypeRepeaterLoginRequest.read) 0 := by
  unfold Homebrew.Mmdvm2020.TypeRepeaterLoginRequest.read
  refine Lossless.bind (m := 0) (·.repeater_id) Lossless.u4be (fun repeater_id => ?_) (by returns) (by returns)
  exact Lossless.pure rfl

open Dmr.Homebrew in
theorem Homebrew.Mmdvm2020.TypeMasterNotAccept.read_lossless : Lossless 0 (Homebrew.Mmdvm2020.TypeMasterNotAccept.read) (Homebrew.Mmdvm2020.TypeMasterNotAccept.read) 0 := by
  unfold Homebrew.Mmdvm2020.TypeMasterNotAccept.read
  refine Lossless.bind (m := 0) (·.magic) (Lossless.bytes _) (fun magic => ?_) (by returns) (by returns)
  refine Lossless.validate ?_
  refine Lossless.bind (m := 0) (·.repeater_id) Lossless.u4be (fun repeater_id => ?_) (by returns) (by returns)
  exact Lossless.pure rfl

open Dmr.Homebrew in
theorem Homebrew.Mmdvm2020.TypeUnknown.read_lossless : Lossless 0 (Homebrew.Mmdvm2020.TypeUnknown.read) (Homebrew.Mmdvm2020.TypeUnknown.read) 0 := by
  unfold Homebrew.Mmdvm2020.TypeUnknown.read
  refine Lossless.bind (m := 0) (·.unknown_data) Lossless.full (fun unknown_data => ?_) (by returns) (by returns)
  exact Lossless.pure rfl

open Dmr.Homebrew in
theorem Homebrew.Mmdvm2020.TypeMasterRepeaterAck.read_lossless : Lossless 0 (Homebrew.Mmdvm2020.TypeMasterRepeaterAck.read) (Homebrew.Mmdvm2020.TypeMasterRepeaterAck.read) 0 := by
  unfold Homebrew.Mmdvm2020.TypeMasterRepeaterAck.read
  refine Lossless.bind (m := 0) (·.magic) (Lossless.bytes _) (fun magic => ?_) (by returns) (by returns)
  refine Lossless.validate ?_
  refine Lossless.bind (m := 0) (·.repeater_id_or_challenge) Lossless.u4be (fun repeater_id_or_challenge => ?_) (by returns) (by returns)
  exact Lossless.pure rfl

open Dmr.Homebrew in
theorem Homebrew.Mmdvm2020.TypeMasterClosing.read_lossless : Lossless 0 (Homebrew.Mmdvm2020.TypeMasterClosing.read) (Homebrew.Mmdvm2020.TypeMasterClosing.read) 0 := by
  unfold Homebrew.Mmdvm2020.TypeMasterClosing.read
  refine Lossless.bind (m := 0) (·.magic) (Lossless.bytes _) (fun magic => ?_) (by returns) (by returns)
  refine Lossless.validate ?_
  refine Lossless.bind (m := 0) (·.repeater_id) Lossless.u4be (fun repeater_id => ?_) (by returns) (by returns)
  exact Lossless.pure rfl

open Dmr.Homebrew in
theorem Homebrew.Mmdvm2020.TypeDmrData.read_lossless : Lossless 0 (Homebrew.Mmdvm2020.TypeDmrData.read) (Homebrew.Mmdvm2020.TypeDmrData.read) 0 := by
  unfold Homebrew.Mmdvm2020.TypeDmrData.read
  refine Lossless.bind (m := 0) (·.sequence_no) Lossless.u1 (fun sequence_no => ?_) (by returns) (by returns)
  refine Lossless.bind (m := 0) (·.source_id) (Lossless.bits' 24 rfl) (fun source_id => ?_) (by returns) (by returns)
  refine Lossless.bind (m := 0) (·.target_id) (Lossless.bits' 24 rfl) (fun target_id => ?_) (by returns) (by returns)
  refine Lossless.align rfl ?_
  refine Lossless.bind (m := 0) (·.repeater_id) Lossless.u4be (fun repeater_id => ?_) (by returns) (by returns)
  refine Lossless.bind (m := 1) (·.slot_no) (Lossless.asEnum (Lossless.bits' 1 rfl)) (fun slot_no => ?_) (by returns) (by returns)
  refine Lossless.bind (m := 2) (·.call_type) (Lossless.asEnum (Lossless.bits' 1 rfl)) (fun call_type => ?_) (by returns) (by returns)
  refine Lossless.bind (m := 4) (·.frame_type) (Lossless.asEnum (Lossless.bits' 2 rfl)) (fun frame_type => ?_) (by returns) (by returns)
  refine Lossless.bind (m := 0) (·.data_type) (Lossless.bits' 4 rfl) (fun data_type => ?_) (by returns) (by returns)
  refine Lossless.align rfl ?_
  refine Lossless.bind (m := 0) (·.stream_id) Lossless.u4be (fun stream_id => ?_) (by returns) (by returns)
  refine Lossless.bind (m := 0) (·.dmr_data) (Lossless.bytes _) (fun dmr_data => ?_) (by returns) (by returns)
  refine Lossless.isEof fun eof1 eof1' => ?_
  refine Lossless.bind (m := 0) (·.bit_error_rate) (Lossless.optionally fun _ _ => Lossless.u1) (fun bit_error_rate => ?_) (by returns) (by returns)
  refine Lossless.isEof fun eof2 eof2' => ?_
  refine Lossless.bind (m := 0) (·.rssi) (Lossless.optionally fun _ _ => Lossless.u1) (fun rssi => ?_) (by returns) (by returns)
  exact Lossless.pure rfl

open Dmr.Homebrew in
theorem Homebrew.Mmdvm2020.TypeRepeaterBeacon.read_lossless : Lossless 0 (Homebrew.Mmdvm2020.TypeRepeaterBeacon.read) (Homebrew.Mmdvm2020.TypeRepeaterBeacon.read) 0 := by
  unfold Homebrew.Mmdvm2020.TypeRepeaterBeacon.read
  exact Lossless.pure rfl

open Dmr.Homebrew in
theorem Homebrew.Mmdvm2020.TypeRepeaterOptions.read_lossless : Lossless 0 (Homebrew.Mmdvm2020.TypeRepeaterOptions.read) (Homebrew.Mmdvm2020.TypeRepeaterOptions.read) 0 := by
  unfold Homebrew.Mmdvm2020.TypeRepeaterOptions.read
  refine Lossless.bind (m := 0) (·.repeater_id) Lossless.u4be (fun repeater_id => ?_) (by returns) (by returns)
  refine Lossless.bind (m := 0) (·.options) (Lossless.decodeWith Lossless.full decodeAscii_inj) (fun options => ?_) (by returns) (by returns)
  exact Lossless.pure rfl

open Dmr.Homebrew in
theorem Homebrew.Mmdvm2020.TypeRepeaterPing.read_lossless : Lossless 0 (Homebrew.Mmdvm2020.TypeRepeaterPing.read) (Homebrew.Mmdvm2020.TypeRepeaterPing.read) 0 := by
  unfold Homebrew.Mmdvm2020.TypeRepeaterPing.read
  refine Lossless.bind (m := 0) (·.magic) (Lossless.bytes _) (fun magic => ?_) (by returns) (by returns)
  refine Lossless.validate ?_
  refine Lossless.bind (m := 0) (·.repeater_id) Lossless.u4be (fun repeater_id => ?_) (by returns) (by returns)
  exact Lossless.pure rfl

open Dmr.Homebrew in
theorem Homebrew.Mmdvm2020.readCommandData_lossless (on : PyStr) : Lossless 0 (Homebrew.Mmdvm2020.readCommandData on) (Homebrew.Mmdvm2020.readCommandData on) 0 := by
  unfold Homebrew.Mmdvm2020.readCommandData
  refine Lossless.ite (fun _ => Lossless.map (Homebrew.Mmdvm2020.TypeRepeaterLoginRequest.read_lossless) fun _ _ h => by injections) fun _ => ?_
  refine Lossless.ite (fun _ => Lossless.map (Homebrew.Mmdvm2020.TypeRadioPosition.read_lossless) fun _ _ h => by injections) fun _ => ?_
  refine Lossless.ite (fun _ => Lossless.map (Homebrew.Mmdvm2020.TypeMasterRepeaterAck.read_lossless) fun _ _ h => by injections) fun _ => ?_
  refine Lossless.ite (fun _ => Lossless.map (Homebrew.Mmdvm2020.TypeRepeaterLoginResponse.read_lossless) fun _ _ h => by injections) fun _ => ?_
  refine Lossless.ite (fun _ => Lossless.map (Homebrew.Mmdvm2020.TypeRepeaterConfigurationOrClosing.read_lossless) fun _ _ h => by injections) fun _ => ?_
  refine Lossless.ite (fun _ => Lossless.map (Homebrew.Mmdvm2020.TypeDmrData.read_lossless) fun _ _ h => by injections) fun _ => ?_
  refine Lossless.ite (fun _ => Lossless.map (Homebrew.Mmdvm2020.TypeMasterClosing.read_lossless) fun _ _ h => by injections) fun _ => ?_
  refine Lossless.ite (fun _ => Lossless.map (Homebrew.Mmdvm2020.TypeRepeaterPing.read_lossless) fun _ _ h => by injections) fun _ => ?_
  refine Lossless.ite (fun _ => Lossless.map (Homebrew.Mmdvm2020.TypeRepeaterOptions.read_lossless) fun _ _ h => by injections) fun _ => ?_
  refine Lossless.ite (fun _ => Lossless.map (Homebrew.Mmdvm2020.TypeMasterPong.read_lossless) fun _ _ h => by injections) fun _ => ?_
  refine Lossless.ite (fun _ => Lossless.map (Homebrew.Mmdvm2020.TypeRepeaterBeacon.read_lossless) fun _ _ h => by injections) fun _ => ?_
  refine Lossless.ite (fun _ => Lossless.map (Homebrew.Mmdvm2020.TypeMasterNotAccept.read_lossless) fun _ _ h => by injections) fun _ => ?_
  refine Lossless.ite (fun _ => Lossless.map (Homebrew.Mmdvm2020.TypeTalkerAlias.read_lossless) fun _ _ h => by injections) fun _ => ?_
  exact Lossless.pure rfl

open Dmr.Homebrew in
theorem Homebrew.Mmdvm2020.read_lossless : Lossless 0 (Homebrew.Mmdvm2020.read) (Homebrew.Mmdvm2020.read) 0 := by
  unfold Homebrew.Mmdvm2020.read
  refine Lossless.bind (m := 0) (·.command_prefix) (Lossless.decodeWith (Lossless.bytes _) decodeAscii_inj) (fun command_prefix => ?_) (by returns) (by returns)
  refine Lossless.bind (m := 0) (·.command_data) (Homebrew.Mmdvm2020.readCommandData_lossless _) (fun command_data => ?_) (by returns) (by returns)
  exact Lossless.pure rfl

open Dmr.Hytera in
theorem Hytera.RadioIp.read_lossless : Lossless 0 (Hytera.RadioIp.read) (Hytera.RadioIp.read) 0 := by
  unfold Hytera.RadioIp.read
  refine Lossless.bind (m := 0) (·.subnet) Lossless.u1 (fun subnet => ?_) (by returns) (by returns)
  refine Lossless.bind (m := 0) (·.radio_id_1) Lossless.u1 (fun radio_id_1 => ?_) (by returns) (by returns)
  refine Lossless.bind (m := 0) (·.radio_id_2) Lossless.u1 (fun radio_id_2 => ?_) (by returns) (by returns)
  refine Lossless.bind (m := 0) (·.radio_id_3) Lossless.u1 (fun radio_id_3 => ?_) (by returns) (by returns)
  exact Lossless.pure rfl

open Dmr.Hytera in
theorem Hytera.DataDeliveryStates.read_lossless : Lossless 0 (Hytera.DataDeliveryStates.read) (Hytera.DataDeliveryStates.read) 0 := by
  unfold Hytera.DataDeliveryStates.read
  refine Lossless.bind (m := 0) (·.reserved) (Lossless.bytes _) (fun reserved => ?_) (by returns) (by returns)
  refine Lossless.bind (m := 0) (·.state_type) (Lossless.asEnum Lossless.u1) (fun state_type => ?_) (by returns) (by returns)
  refine Lossless.bind (m := 0) (·.message_length) Lossless.u2be (fun message_length => ?_) (by returns) (by returns)
  refine Lossless.bind (m := 0) (·.radio_ip) (Hytera.RadioIp.read_lossless) (fun radio_ip => ?_) (by returns) (by returns)
  refine Lossless.bind (m := 0) (·.protocol_opcode) Lossless.u2be (fun protocol_opcode => ?_) (by returns) (by returns)
  refine Lossless.bind (m := 0) (·.result) (Lossless.asEnum Lossless.u1) (fun result => ?_) (by returns) (by returns)
  exact Lossless.pure rfl

open Dmr.Hytera in
theorem Hytera.DataTransmitProtocol.LastDataSlice.read_lossless : Lossless 0 (Hytera.DataTransmitProtocol.LastDataSlice.read) (Hytera.DataTransmitProtocol.LastDataSlice.read) 0 := by
  unfold Hytera.DataTransmitProtocol.LastDataSlice.read
  refine Lossless.bind (m := 0) (·.destination_ip) (Hytera.RadioIp.read_lossless) (fun destination_ip => ?_) (by returns) (by returns)
  refine Lossless.bind (m := 0) (·.source_ip) (Hytera.RadioIp.read_lossless) (fun source_ip => ?_) (by returns) (by returns)
  exact Lossless.pure rfl

open Dmr.Hytera in
theorem Hytera.DataTransmitProtocol.DtpRequest.read_lossless (parent_message_length : Nat) : Lossless 0 (Hytera.DataTransmitProtocol.DtpRequest.read parent_message_length) (Hytera.DataTransmitProtocol.DtpRequest.read parent_message_length) 0 := by
  unfold Hytera.DataTransmitProtocol.DtpRequest.read
  refine Lossless.bind (m := 0) (·.destination_ip) (Hytera.RadioIp.read_lossless) (fun destination_ip => ?_) (by returns) (by returns)
  refine Lossless.bind (m := 0) (·.source_ip) (Hytera.RadioIp.read_lossless) (fun source_ip => ?_) (by returns) (by returns)
  refine Lossless.bind (m := 0) (·.file_size) Lossless.u2be (fun file_size => ?_) (by returns) (by returns)
  refine Lossless.bind (m := 0) (·.file_name) (Lossless.decodeWith (Lossless.bytesInt _) decodeUtf16le_inj) (fun file_name => ?_) (by returns) (by returns)
  exact Lossless.pure rfl

open Dmr.Hytera in
theorem Hytera.DataTransmitProtocol.DataSliceAnswer.read_lossless : Lossless 0 (Hytera.DataTransmitProtocol.DataSliceAnswer.read) (Hytera.DataTransmitProtocol.DataSliceAnswer.read) 0 := by
  unfold Hytera.DataTransmitProtocol.DataSliceAnswer.read
  refine Lossless.bind (m := 0) (·.destination_ip) (Hytera.RadioIp.read_lossless) (fun destination_ip => ?_) (by returns) (by returns)
  refine Lossless.bind (m := 0) (·.source_ip) (Hytera.RadioIp.read_lossless) (fun source_ip => ?_) (by returns) (by returns)
  refine Lossless.bind (m := 0) (·.block_number) Lossless.u2be (fun block_number => ?_) (by returns) (by returns)
  refine Lossless.bind (m := 0) (·.result) (Lossless.asEnum Lossless.u1) (fun result => ?_) (by returns) (by returns)
  exact Lossless.pure rfl

open Dmr.Hytera in
theorem Hytera.DataTransmitProtocol.DataSliceTransmit.read_lossless (parent_message_length : Nat) : Lossless 0 (Hytera.DataTransmitProtocol.DataSliceTransmit.read parent_message_length) (Hytera.DataTransmitProtocol.DataSliceTransmit.read parent_message_length) 0 := by
  unfold Hytera.DataTransmitProtocol.DataSliceTransmit.read
  refine Lossless.bind (m := 0) (·.destination_ip) (Hytera.RadioIp.read_lossless) (fun destination_ip => ?_) (by returns) (by returns)
  refine Lossless.bind (m := 0) (·.source_ip) (Hytera.RadioIp.read_lossless) (fun source_ip => ?_) (by returns) (by returns)
  refine Lossless.bind (m := 0) (·.block_number) Lossless.u2be (fun block_number => ?_) (by returns) (by returns)
  refine Lossless.bind (m := 0) (·.file_data) (Lossless.bytesInt _) (fun file_data => ?_) (by returns) (by returns)
  exact Lossless.pure rfl

open Dmr.Hytera in
theorem Hytera.DataTransmitProtocol.LastDataSliceAnswer.read_lossless : Lossless 0 (Hytera.DataTransmitProtocol.LastDataSliceAnswer.read) (Hytera.DataTransmitProtocol.LastDataSliceAnswer.read) 0 := by
  unfold Hytera.DataTransmitProtocol.LastDataSliceAnswer.read
  refine Lossless.bind (m := 0) (·.destination_ip) (Hytera.RadioIp.read_lossless) (fun destination_ip => ?_) (by returns) (by returns)
  refine Lossless.bind (m := 0) (·.source_ip) (Hytera.RadioIp.read_lossless) (fun source_ip => ?_) (by returns) (by returns)
  refine Lossless.bind (m := 0) (·.result) (Lossless.asEnum Lossless.u1) (fun result => ?_) (by returns) (by returns)
  exact Lossless.pure rfl

open Dmr.Hytera in
theorem Hytera.DataTransmitProtocol.DtpAnswer.read_lossless : Lossless 0 (Hytera.DataTransmitProtocol.DtpAnswer.read) (Hytera.DataTransmitProtocol.DtpAnswer.read) 0 := by
  unfold Hytera.DataTransmitProtocol.DtpAnswer.read
  refine Lossless.bind (m := 0) (·.destination_ip) (Hytera.RadioIp.read_lossless) (fun destination_ip => ?_) (by returns) (by returns)
  refine Lossless.bind (m := 0) (·.source_ip) (Hytera.RadioIp.read_lossless) (fun source_ip => ?_) (by returns) (by returns)
  refine Lossless.bind (m := 0) (·.result) (Lossless.asEnum Lossless.u1) (fun result => ?_) (by returns) (by returns)
  exact Lossless.pure rfl

open Dmr.Hytera in
theorem Hytera.DataTransmitProtocol.readData_lossless (on : EnumVal DataTransmitProtocol.ServiceSpecificTypes) (message_length : Nat) : Lossless 0 (Hytera.DataTransmitProtocol.readData on message_length) (Hytera.DataTransmitProtocol.readData on message_length) 0 := by
  unfold Hytera.DataTransmitProtocol.readData
  refine Lossless.ite (fun _ => Lossless.map (Hytera.DataTransmitProtocol.DtpRequest.read_lossless _) fun _ _ h => by injections) fun _ => ?_
  refine Lossless.ite (fun _ => Lossless.map (Hytera.DataTransmitProtocol.DataSliceTransmit.read_lossless _) fun _ _ h => by injections) fun _ => ?_
  refine Lossless.ite (fun _ => Lossless.map (Hytera.DataTransmitProtocol.DataSliceAnswer.read_lossless) fun _ _ h => by injections) fun _ => ?_
  refine Lossless.ite (fun _ => Lossless.map (Hytera.DataTransmitProtocol.LastDataSliceAnswer.read_lossless) fun _ _ h => by injections) fun _ => ?_
  refine Lossless.ite (fun _ => Lossless.map (Hytera.DataTransmitProtocol.DtpAnswer.read_lossless) fun _ _ h => by injections) fun _ => ?_
  refine Lossless.ite (fun _ => Lossless.map (Hytera.DataTransmitProtocol.LastDataSlice.read_lossless) fun _ _ h => by injections) fun _ => ?_
  exact Lossless.pure rfl

open Dmr.Hytera in
theorem Hytera.DataTransmitProtocol.read_lossless : Lossless 0 (Hytera.DataTransmitProtocol.read) (Hytera.DataTransmitProtocol.read) 0 := by
  unfold Hytera.DataTransmitProtocol.read
  refine Lossless.bind (m := 0) (·.service_type) (Lossless.asEnum Lossless.u1) (fun service_type => ?_) (by returns) (by returns)
  refine Lossless.bind (m := 0) (·.service_specific_type) (Lossless.asEnum Lossless.u1) (fun service_specific_type => ?_) (by returns) (by returns)
  refine Lossless.bind (m := 0) (·.message_length) Lossless.u2be (fun message_length => ?_) (by returns) (by returns)
  refine Lossless.bind (m := 0) (·.data) (Hytera.DataTransmitProtocol.readData_lossless _ _) (fun data => ?_) (by returns) (by returns)
  exact Lossless.pure rfl

open Dmr.Hytera in
theorem Hytera.Datetimestring.read_lossless : Lossless 0 (Hytera.Datetimestring.read) (Hytera.Datetimestring.read) 0 := by
  unfold Hytera.Datetimestring.read
  refine Lossless.bind (m := 0) (·.datetime) (Lossless.decodeWith (Lossless.bytes _) decodeUtf8_inj) (fun datetime => ?_) (by returns) (by returns)
  exact Lossless.pure rfl

open Dmr.Hytera in
theorem Hytera.Gpsdata.read_lossless : Lossless 0 (Hytera.Gpsdata.read) (Hytera.Gpsdata.read) 0 := by
  unfold Hytera.Gpsdata.read
  refine Lossless.bind (m := 0) (·.gps_status) (Lossless.bytes _) (fun gps_status => ?_) (by returns) (by returns)
  refine Lossless.bind (m := 0) (·.gps_time) (Lossless.bytes _) (fun gps_time => ?_) (by returns) (by returns)
  refine Lossless.bind (m := 0) (·.gps_date) (Lossless.bytes _) (fun gps_date => ?_) (by returns) (by returns)
  refine Lossless.bind (m := 0) (·.north_south) (Lossless.bytes _) (fun north_south => ?_) (by returns) (by returns)
  refine Lossless.bind (m := 0) (·.latitude) (Lossless.bytes _) (fun latitude => ?_) (by returns) (by returns)
  refine Lossless.bind (m := 0) (·.east_west) (Lossless.bytes _) (fun east_west => ?_) (by returns) (by returns)
  refine Lossless.bind (m := 0) (·.longitude) (Lossless.bytes _) (fun longitude => ?_) (by returns) (by returns)
  refine Lossless.bind (m := 0) (·.speed) (Lossless.bytes _) (fun speed => ?_) (by returns) (by returns)
  refine Lossless.bind (m := 0) (·.direction) (Lossless.bytes _) (fun direction => ?_) (by returns) (by returns)
  exact Lossless.pure rfl

open Dmr.Hytera in
theorem Hytera.HyteraDmrApplicationProtocol.UndefinedProtocol.read_lossless : Lossless 0 (Hytera.HyteraDmrApplicationProtocol.UndefinedProtocol.read) (Hytera.HyteraDmrApplicationProtocol.UndefinedProtocol.read) 0 := by
  unfold Hytera.HyteraDmrApplicationProtocol.UndefinedProtocol.read
  refine Lossless.bind (m := 0) (·.data) Lossless.full (fun data => ?_) (by returns) (by returns)
  exact Lossless.pure rfl

open Dmr.Hytera in
theorem Hytera.RadioRegistrationService.read_lossless : Lossless 0 (Hytera.RadioRegistrationService.read) (Hytera.RadioRegistrationService.read) 0 := by
  unfold Hytera.RadioRegistrationService.read
  refine Lossless.bind (m := 0) (·.opcode) (Lossless.bytes _) (fun opcode => ?_) (by returns) (by returns)
  refine Lossless.validate ?_
  refine Lossless.bind (m := 0) (·.rrs_type) (Lossless.asEnum Lossless.u1) (fun rrs_type => ?_) (by returns) (by returns)
  refine Lossless.bind (m := 0) (·.message_length) Lossless.u2be (fun message_length => ?_) (by returns) (by returns)
  refine Lossless.bind (m := 0) (·.radio_ip) (Hytera.RadioIp.read_lossless) (fun radio_ip => ?_) (by returns) (by returns)
  refine Lossless.bind (m := 0) (·.result) (Lossless.optionally fun _ _ => Lossless.u1) (fun result => ?_) (by returns) (by returns)
  refine Lossless.bind (m := 0) (·.valid_time) (Lossless.optionally fun _ _ => Lossless.u4be) (fun valid_time => ?_) (by returns) (by returns)
  exact Lossless.pure rfl

open Dmr.Hytera in
theorem Hytera.TelemetryProtocol.StandardStatusRequest.read_lossless : Lossless 0 (Hytera.TelemetryProtocol.StandardStatusRequest.read) (Hytera.TelemetryProtocol.StandardStatusRequest.read) 0 := by
  unfold Hytera.TelemetryProtocol.StandardStatusRequest.read
  refine Lossless.bind (m := 0) (·.source_ip) (Hytera.RadioIp.read_lossless) (fun source_ip => ?_) (by returns) (by returns)
  refine Lossless.bind (m := 0) (·.target_ip) (Hytera.RadioIp.read_lossless) (fun target_ip => ?_) (by returns) (by returns)
  refine Lossless.bind (m := 0) (·.pc_flag) (Lossless.asEnum Lossless.u1) (fun pc_flag => ?_) (by returns) (by returns)
  refine Lossless.bind (m := 0) (·.call_type) (Lossless.asEnum Lossless.u1) (fun call_type => ?_) (by returns) (by returns)
  refine Lossless.bind (m := 0) (·.vio_select) (Lossless.bytes _) (fun vio_select => ?_) (by returns) (by returns)
  exact Lossless.pure rfl

open Dmr.Hytera in
theorem Hytera.TelemetryProtocol.RemoteControlAnswer.read_lossless : Lossless 0 (Hytera.TelemetryProtocol.RemoteControlAnswer.read) (Hytera.TelemetryProtocol.RemoteControlAnswer.read) 0 := by
  unfold Hytera.TelemetryProtocol.RemoteControlAnswer.read
  refine Lossless.bind (m := 0) (·.source_ip) (Hytera.RadioIp.read_lossless) (fun source_ip => ?_) (by returns) (by returns)
  refine Lossless.bind (m := 0) (·.target_ip) (Hytera.RadioIp.read_lossless) (fun target_ip => ?_) (by returns) (by returns)
  refine Lossless.bind (m := 0) (·.pc_flag) (Lossless.asEnum Lossless.u1) (fun pc_flag => ?_) (by returns) (by returns)
  refine Lossless.bind (m := 0) (·.call_type) (Lossless.asEnum Lossless.u1) (fun call_type => ?_) (by returns) (by returns)
  refine Lossless.bind (m := 0) (·.vio_select) (Lossless.bytes _) (fun vio_select => ?_) (by returns) (by returns)
  refine Lossless.bind (m := 0) (·.result) (Lossless.asEnum Lossless.u1) (fun result => ?_) (by returns) (by returns)
  exact Lossless.pure rfl

open Dmr.Hytera in
theorem Hytera.TelemetryProtocol.VioExtendedStatus.read_lossless : Lossless 0 (Hytera.TelemetryProtocol.VioExtendedStatus.read) (Hytera.TelemetryProtocol.VioExtendedStatus.read) 0 := by
  unfold Hytera.TelemetryProtocol.VioExtendedStatus.read
  refine Lossless.bind (m := 0) (·.result) (Lossless.asEnum Lossless.u1) (fun result => ?_) (by returns) (by returns)
  refine Lossless.bind (m := 0) (·.message_length) Lossless.u2be (fun message_length => ?_) (by returns) (by returns)
  refine Lossless.bind (m := 0) (·.message) (Lossless.decodeWith (Lossless.bytes _) decodeUtf16le_inj) (fun message => ?_) (by returns) (by returns)
  exact Lossless.pure rfl

open Dmr.Hytera in
theorem Hytera.TelemetryProtocol.ExtendedStatusReport.read_lossless : Lossless 0 (Hytera.TelemetryProtocol.ExtendedStatusReport.read) (Hytera.TelemetryProtocol.ExtendedStatusReport.read) 0 := by
  unfold Hytera.TelemetryProtocol.ExtendedStatusReport.read
  refine Lossless.bind (m := 0) (·.source_ip) (Hytera.RadioIp.read_lossless) (fun source_ip => ?_) (by returns) (by returns)
  refine Lossless.bind (m := 0) (·.target_ip) (Hytera.RadioIp.read_lossless) (fun target_ip => ?_) (by returns) (by returns)
  refine Lossless.bind (m := 0) (·.pc_flag) (Lossless.asEnum Lossless.u1) (fun pc_flag => ?_) (by returns) (by returns)
  refine Lossless.bind (m := 0) (·.call_type) (Lossless.asEnum Lossless.u1) (fun call_type => ?_) (by returns) (by returns)
  refine Lossless.bind (m := 0) (·.vio_select) (Lossless.bytes _) (fun vio_select => ?_) (by returns) (by returns)
  refine Lossless.bind (m := 0) (·.result_messages) (Hytera.TelemetryProtocol.VioExtendedStatus.read_lossless) (fun result_messages => ?_) (by returns) (by returns)
  exact Lossless.pure rfl

open Dmr.Hytera in
theorem Hytera.TelemetryProtocol.RemoteControlRequest.read_lossless : Lossless 0 (Hytera.TelemetryProtocol.RemoteControlRequest.read) (Hytera.TelemetryProtocol.RemoteControlRequest.read) 0 := by
  unfold Hytera.TelemetryProtocol.RemoteControlRequest.read
  refine Lossless.bind (m := 0) (·.source_ip) (Hytera.RadioIp.read_lossless) (fun source_ip => ?_) (by returns) (by returns)
  refine Lossless.bind (m := 0) (·.target_ip) (Hytera.RadioIp.read_lossless) (fun target_ip => ?_) (by returns) (by returns)
  refine Lossless.bind (m := 0) (·.pc_flag) (Lossless.asEnum Lossless.u1) (fun pc_flag => ?_) (by returns) (by returns)
  refine Lossless.bind (m := 0) (·.call_type) (Lossless.asEnum Lossless.u1) (fun call_type => ?_) (by returns) (by returns)
  refine Lossless.bind (m := 0) (·.vio_select) (Lossless.bytes _) (fun vio_select => ?_) (by returns) (by returns)
  refine Lossless.bind (m := 0) (·.operation) (Lossless.asEnum Lossless.u1) (fun operation => ?_) (by returns) (by returns)
  exact Lossless.pure rfl

open Dmr.Hytera in
theorem Hytera.TelemetryProtocol.StandardStatusReport.read_lossless : Lossless 0 (Hytera.TelemetryProtocol.StandardStatusReport.read) (Hytera.TelemetryProtocol.StandardStatusReport.read) 0 := by
  unfold Hytera.TelemetryProtocol.StandardStatusReport.read
  refine Lossless.bind (m := 0) (·.source_ip) (Hytera.RadioIp.read_lossless) (fun source_ip => ?_) (by returns) (by returns)
  refine Lossless.bind (m := 0) (·.target_ip) (Hytera.RadioIp.read_lossless) (fun target_ip => ?_) (by returns) (by returns)
  refine Lossless.bind (m := 0) (·.pc_flag) (Lossless.asEnum Lossless.u1) (fun pc_flag => ?_) (by returns) (by returns)
  refine Lossless.bind (m := 0) (·.call_type) (Lossless.asEnum Lossless.u1) (fun call_type => ?_) (by returns) (by returns)
  refine Lossless.bind (m := 0) (·.vio_select) (Lossless.bytes _) (fun vio_select => ?_) (by returns) (by returns)
  refine Lossless.bind (m := 0) (·.result) (Lossless.asEnum Lossless.u1) (fun result => ?_) (by returns) (by returns)
  exact Lossless.pure rfl

open Dmr.Hytera in
theorem Hytera.TelemetryProtocol.readData_lossless (on : EnumVal TelemetryProtocol.ServiceSpecificTypes) : Lossless 0 (Hytera.TelemetryProtocol.readData on) (Hytera.TelemetryProtocol.readData on) 0 := by
  unfold Hytera.TelemetryProtocol.readData
  refine Lossless.ite (fun _ => Lossless.map (Hytera.TelemetryProtocol.StandardStatusRequest.read_lossless) fun _ _ h => by injections) fun _ => ?_
  refine Lossless.ite (fun _ => Lossless.map (Hytera.TelemetryProtocol.RemoteControlAnswer.read_lossless) fun _ _ h => by injections) fun _ => ?_
  refine Lossless.ite (fun _ => Lossless.map (Hytera.TelemetryProtocol.ExtendedStatusReport.read_lossless) fun _ _ h => by injections) fun _ => ?_
  refine Lossless.ite (fun _ => Lossless.map (Hytera.TelemetryProtocol.RemoteControlRequest.read_lossless) fun _ _ h => by injections) fun _ => ?_
  refine Lossless.ite (fun _ => Lossless.map (Hytera.TelemetryProtocol.StandardStatusReport.read_lossless) fun _ _ h => by injections) fun _ => ?_
  exact Lossless.pure rfl

open Dmr.Hytera in
theorem Hytera.TelemetryProtocol.read_lossless : Lossless 0 (Hytera.TelemetryProtocol.read) (Hytera.TelemetryProtocol.read) 0 := by
  unfold Hytera.TelemetryProtocol.read
  refine Lossless.bind (m := 0) (·.service_type_opcode) (Lossless.asEnum Lossless.u1) (fun _ => ?_) (by returns) (by returns)
  refine Lossless.bind (m := 0) (·.specific_service_opcode) Lossless.u1 (fun _ => ?_) (by returns) (by returns)
  refine Lossless.bind (m := 0) (·.message_length) Lossless.u2be (fun _ => ?_) (by returns) (by returns)
  have hs : Silent TelemetryProtocol.computeSpecificService := Silent.peek 0 Bytewise.u2be.asEnum
  refine Lossless.bind (m := 0) (·.m_specific_service) (Lossless.ofSilent hs hs) (fun _ => ?_) (by returns) (by returns)
  refine Lossless.bind (m := 0) (·.data) (Hytera.TelemetryProtocol.readData_lossless _) (fun _ => ?_) (by returns) (by returns)
  exact Lossless.pure rfl

open Dmr.Hytera in
theorem Hytera.RadioControlProtocol.CallReply.read_lossless : Lossless 0 (Hytera.RadioControlProtocol.CallReply.read) (Hytera.RadioControlProtocol.CallReply.read) 0 := by
  unfold Hytera.RadioControlProtocol.CallReply.read
  refine Lossless.bind (m := 0) (·.result) (Lossless.asEnum Lossless.u1) (fun result => ?_) (by returns) (by returns)
  exact Lossless.pure rfl

open Dmr.Hytera in
theorem Hytera.RadioControlProtocol.RadioIdentificationReply.read_lossless (parent_message_length : Nat) : Lossless 0 (Hytera.RadioControlProtocol.RadioIdentificationReply.read parent_message_length) (Hytera.RadioControlProtocol.RadioIdentificationReply.read parent_message_length) 0 := by
  unfold Hytera.RadioControlProtocol.RadioIdentificationReply.read
  refine Lossless.bind (m := 0) (·.header) (Lossless.optionally fun _ _ => (Lossless.bytes _)) (fun header => ?_) (by returns) (by returns)
  refine Lossless.bind (m := 0) (·.text) (Lossless.optionally fun _ _ => (Lossless.decodeWith (Lossless.bytes _) decodeUtf16be_inj)) (fun text => ?_) (by returns) (by returns)
  refine Lossless.bind (m := 0) (·.footer) (Lossless.optionally fun _ _ => (Lossless.bytes _)) (fun footer => ?_) (by returns) (by returns)
  exact Lossless.pure rfl

open Dmr.Hytera in
theorem Hytera.RadioControlProtocol.BroadcastConfiguration.read_lossless : Lossless 0 (Hytera.RadioControlProtocol.BroadcastConfiguration.read) (Hytera.RadioControlProtocol.BroadcastConfiguration.read) 0 := by
  unfold Hytera.RadioControlProtocol.BroadcastConfiguration.read
  refine Lossless.bind (m := 0) (·.config_operation) Lossless.u1 (fun config_operation => ?_) (by returns) (by returns)
  refine Lossless.bind (m := 0) (·.config_target) Lossless.u1 (fun config_target => ?_) (by returns) (by returns)
  exact Lossless.pure rfl

open Dmr.Hytera in
theorem Hytera.RadioControlProtocol.BroadcastStatusConfigurationRequest.read_lossless : Lossless 0 (Hytera.RadioControlProtocol.BroadcastStatusConfigurationRequest.read) (Hytera.RadioControlProtocol.BroadcastStatusConfigurationRequest.read) 0 := by
  unfold Hytera.RadioControlProtocol.BroadcastStatusConfigurationRequest.read
  refine Lossless.bind (m := 0) (·.num_broadcast_configuration) Lossless.u1 (fun num_broadcast_configuration => ?_) (by returns) (by returns)
  refine Lossless.bind (m := 0) (·.broadcast_configuration) (Lossless.repeatN _ (Hytera.RadioControlProtocol.BroadcastConfiguration.read_lossless)) (fun broadcast_configuration => ?_) (by returns) (by returns)
  exact Lossless.pure rfl

open Dmr.Hytera in
theorem Hytera.RadioControlProtocol.CallRequest.read_lossless : Lossless 0 (Hytera.RadioControlProtocol.CallRequest.read) (Hytera.RadioControlProtocol.CallRequest.read) 0 := by
  unfold Hytera.RadioControlProtocol.CallRequest.read
  refine Lossless.bind (m := 0) (·.call_type) (Lossless.asEnum Lossless.u1) (fun call_type => ?_) (by returns) (by returns)
  refine Lossless.bind (m := 0) (·.target_id) Lossless.u4le (fun target_id => ?_) (by returns) (by returns)
  exact Lossless.pure rfl

open Dmr.Hytera in
theorem Hytera.RadioControlProtocol.RemoveRadioRequest.read_lossless : Lossless 0 (Hytera.RadioControlProtocol.RemoveRadioRequest.read) (Hytera.RadioControlProtocol.RemoveRadioRequest.read) 0 := by
  unfold Hytera.RadioControlProtocol.RemoveRadioRequest.read
  exact Lossless.pure rfl

open Dmr.Hytera in
theorem Hytera.RadioControlProtocol.BroadcastStatusConfigurationReply.read_lossless : Lossless 0 (Hytera.RadioControlProtocol.BroadcastStatusConfigurationReply.read) (Hytera.RadioControlProtocol.BroadcastStatusConfigurationReply.read) 0 := by
  unfold Hytera.RadioControlProtocol.BroadcastStatusConfigurationReply.read
  refine Lossless.bind (m := 0) (·.result) (Lossless.asEnum Lossless.u1) (fun result => ?_) (by returns) (by returns)
  exact Lossless.pure rfl

open Dmr.Hytera in
theorem Hytera.RadioControlProtocol.RemoveRadioReply.read_lossless : Lossless 0 (Hytera.RadioControlProtocol.RemoveRadioReply.read) (Hytera.RadioControlProtocol.RemoveRadioReply.read) 0 := by
  unfold Hytera.RadioControlProtocol.RemoveRadioReply.read
  refine Lossless.bind (m := 0) (·.result) (Lossless.asEnum Lossless.u1) (fun result => ?_) (by returns) (by returns)
  exact Lossless.pure rfl

open Dmr.Hytera in
theorem Hytera.RadioControlProtocol.GenericData.read_lossless (parent_message_length : Nat) : Lossless 0 (Hytera.RadioControlProtocol.GenericData.read parent_message_length) (Hytera.RadioControlProtocol.GenericData.read parent_message_length) 0 := by
  unfold Hytera.RadioControlProtocol.GenericData.read
  refine Lossless.bind (m := 0) (·.data) (Lossless.bytes _) (fun data => ?_) (by returns) (by returns)
  exact Lossless.pure rfl

open Dmr.Hytera in
theorem Hytera.RadioControlProtocol.readData_lossless (on : EnumVal RadioControlProtocol.ServiceTypes) (message_length : Nat) : Lossless 0 (Hytera.RadioControlProtocol.readData on message_length) (Hytera.RadioControlProtocol.readData on message_length) 0 := by
  unfold Hytera.RadioControlProtocol.readData
  refine Lossless.ite (fun _ => Lossless.map (Hytera.RadioControlProtocol.CallReply.read_lossless) fun _ _ h => by injections) fun _ => ?_
  refine Lossless.ite (fun _ => Lossless.map (Hytera.RadioControlProtocol.RadioIdentificationReply.read_lossless _) fun _ _ h => by injections) fun _ => ?_
  refine Lossless.ite (fun _ => Lossless.map (Hytera.RadioControlProtocol.BroadcastStatusConfigurationRequest.read_lossless) fun _ _ h => by injections) fun _ => ?_
  refine Lossless.ite (fun _ => Lossless.map (Hytera.RadioControlProtocol.CallRequest.read_lossless) fun _ _ h => by injections) fun _ => ?_
  refine Lossless.ite (fun _ => Lossless.map (Hytera.RadioControlProtocol.RemoveRadioRequest.read_lossless) fun _ _ h => by injections) fun _ => ?_
  refine Lossless.ite (fun _ => Lossless.map (Hytera.RadioControlProtocol.BroadcastStatusConfigurationReply.read_lossless) fun _ _ h => by injections) fun _ => ?_
  refine Lossless.ite (fun _ => Lossless.map (Hytera.RadioControlProtocol.RemoveRadioReply.read_lossless) fun _ _ h => by injections) fun _ => ?_
  exact Lossless.map (Hytera.RadioControlProtocol.GenericData.read_lossless _) fun _ _ h => by injections

open Dmr.Hytera in
theorem Hytera.RadioControlProtocol.read_lossless : Lossless 0 (Hytera.RadioControlProtocol.read) (Hytera.RadioControlProtocol.read) 0 := by
  unfold Hytera.RadioControlProtocol.read
  refine Lossless.bind (m := 0) (·.service_type) (Lossless.asEnum Lossless.u2le) (fun service_type => ?_) (by returns) (by returns)
  refine Lossless.bind (m := 0) (·.message_length) Lossless.u2le (fun message_length => ?_) (by returns) (by returns)
  refine Lossless.bind (m := 0) (·.data) (Hytera.RadioControlProtocol.readData_lossless _ _) (fun data => ?_) (by returns) (by returns)
  exact Lossless.pure rfl

open Dmr.Hytera in
theorem Hytera.TextMessageProtocol.readOptionField_lossless (len : Option Nat) : Lossless 0 (Hytera.TextMessageProtocol.readOptionField len) (Hytera.TextMessageProtocol.readOptionField len) 0 := by
  unfold Hytera.TextMessageProtocol.readOptionField
  cases len
  · exact Lossless.throw
  · exact Lossless.bytes _

open Dmr.Hytera in
theorem Hytera.TextMessageProtocol.read_lossless : Lossless 0 (Hytera.TextMessageProtocol.read) (Hytera.TextMessageProtocol.read) 0 := by
  unfold Hytera.TextMessageProtocol.read
  refine Lossless.bind (m := 1) (·.ack_flag) (Lossless.asEnum (Lossless.bits' 1 rfl)) (fun _ => ?_) (by returns) (by returns)
  refine Lossless.bind (m := 2) (·.option_flag) (Lossless.asEnum (Lossless.bits' 1 rfl)) (fun option_flag => ?_) (by returns) (by returns)
  refine Lossless.bind (m := 0) (·.reserved) (Lossless.bits' 6 rfl) (fun _ => ?_) (by returns) (by returns)
  refine Lossless.align rfl ?_
  refine Lossless.bind (m := 0) (·.service_type) (Lossless.asEnum Lossless.u1) (fun service_type => ?_) (by returns) (by returns)
  refine Lossless.bind (m := 0) (·.message_length) Lossless.u2be (fun message_length => ?_) (by returns) (by returns)
  cases option_flag with
  | raw v => exact Lossless.throw
  | known e =>
    refine Lossless.pureBind ?_
    refine Lossless.bind (m := 0) (·.option_field_len) (Lossless.optionally fun _ _ => Lossless.u2be) (fun option_field_len => ?_) (by returns) (by returns)
    refine Lossless.bind (m := 0) (·.request_id) Lossless.u4be (fun _ => ?_) (by returns) (by returns)
    refine Lossless.bind (m := 0) (·.destination_ip) Hytera.RadioIp.read_lossless (fun _ => ?_) (by returns) (by returns)
    refine Lossless.bind (m := 0) (·.source_ip) (Lossless.optionally fun _ _ => Hytera.RadioIp.read_lossless) (fun _ => ?_) (by returns) (by returns)
    refine Lossless.bind (m := 0) (·.result) (Lossless.optionally fun _ _ => Lossless.asEnum Lossless.u1) (fun _ => ?_) (by returns) (by returns)
    refine Lossless.bind (m := 0) (·.tmdata) (Lossless.optionally fun _ _ => ?_) (fun _ => ?_) (by returns) (by returns)
    · have hs : TextMessageProtocol.optionSumLen (.known e) option_field_len =
          if PyEnum.value e = 1 then (match option_field_len with | some n => Pure.pure (n + 2) | none => Rd.throw .attribute)
          else Pure.pure 0 := by
        unfold TextMessageProtocol.optionSumLen TextMessageProtocol.optionFlagIsOne
        dsimp only
        by_cases h1 : PyEnum.value e = 1
        · rw [if_pos h1, decide_eq_true h1]; rfl
        · rw [if_neg h1, decide_eq_false h1]; rfl
      rw [hs]
      split
      · cases option_field_len
        · exact Lossless.throw
        · exact Lossless.decodeWith (Lossless.bytesInt _) decodeUtf16le_inj
      · exact Lossless.decodeWith (Lossless.bytesInt _) decodeUtf16le_inj
    · refine Lossless.pureBind ?_
      refine Lossless.bind (m := 0) (·.option_field) (Lossless.optionally fun _ _ => Lossless.decodeWith (Hytera.TextMessageProtocol.readOptionField_lossless _) decodeUtf16le_inj) (fun _ => ?_) (by returns) (by returns)
      exact Lossless.pure rfl

open Dmr.Hytera in
theorem Hytera.LocationProtocol.TriggeredReportAnswer.read_lossless : Lossless 0 (Hytera.LocationProtocol.TriggeredReportAnswer.read) (Hytera.LocationProtocol.TriggeredReportAnswer.read) 0 := by
  unfold Hytera.LocationProtocol.TriggeredReportAnswer.read
  refine Lossless.bind (m := 0) (·.request_id) Lossless.u4be (fun request_id => ?_) (by returns) (by returns)
  refine Lossless.bind (m := 0) (·.radio_ip) (Hytera.RadioIp.read_lossless) (fun radio_ip => ?_) (by returns) (by returns)
  refine Lossless.bind (m := 0) (·.result) (Lossless.asEnum Lossless.u2be) (fun result => ?_) (by returns) (by returns)
  exact Lossless.pure rfl

open Dmr.Hytera in
theorem Hytera.LocationProtocol.EmergencyReportStopRequest.read_lossless : Lossless 0 (Hytera.LocationProtocol.EmergencyReportStopRequest.read) (Hytera.LocationProtocol.EmergencyReportStopRequest.read) 0 := by
  unfold Hytera.LocationProtocol.EmergencyReportStopRequest.read
  refine Lossless.bind (m := 0) (·.request_id) Lossless.u4be (fun request_id => ?_) (by returns) (by returns)
  refine Lossless.bind (m := 0) (·.radio_ip) (Hytera.RadioIp.read_lossless) (fun radio_ip => ?_) (by returns) (by returns)
  exact Lossless.pure rfl

open Dmr.Hytera in
theorem Hytera.Intervalstring.read_lossless : Lossless 0 (Hytera.Intervalstring.read) (Hytera.Intervalstring.read) 0 := by
  unfold Hytera.Intervalstring.read
  refine Lossless.bind (m := 0) (·.interval) (Lossless.decodeWith (Lossless.bytes _) decodeUtf8_inj) (fun interval => ?_) (by returns) (by returns)
  exact Lossless.pure rfl

open Dmr.Hytera in
theorem Hytera.LocationProtocol.QuickGpsPayload.read_lossless : Lossless 0 (Hytera.LocationProtocol.QuickGpsPayload.read) (Hytera.LocationProtocol.QuickGpsPayload.read) 0 := by
  unfold Hytera.LocationProtocol.QuickGpsPayload.read
  refine Lossless.bind (m := 0) (·.start_time) (Hytera.Datetimestring.read_lossless) (fun start_time => ?_) (by returns) (by returns)
  refine Lossless.bind (m := 0) (·.stop_time) (Hytera.Datetimestring.read_lossless) (fun stop_time => ?_) (by returns) (by returns)
  refine Lossless.bind (m := 0) (·.interval) (Hytera.Intervalstring.read_lossless) (fun interval => ?_) (by returns) (by returns)
  refine Lossless.bind (m := 0) (·.send_step) Lossless.u2be (fun send_step => ?_) (by returns) (by returns)
  refine Lossless.bind (m := 0) (·.channel_use_percentage) Lossless.u1 (fun channel_use_percentage => ?_) (by returns) (by returns)
  refine Lossless.bind (m := 0) (·.send_order) Lossless.u2be (fun send_order => ?_) (by returns) (by returns)
  exact Lossless.pure rfl

open Dmr.Hytera in
theorem Hytera.LocationProtocol.ConditionQuickGpsRequest.read_lossless : Lossless 0 (Hytera.LocationProtocol.ConditionQuickGpsRequest.read) (Hytera.LocationProtocol.ConditionQuickGpsRequest.read) 0 := by
  unfold Hytera.LocationProtocol.ConditionQuickGpsRequest.read
  refine Lossless.bind (m := 0) (·.request_id) Lossless.u4be (fun request_id => ?_) (by returns) (by returns)
  refine Lossless.bind (m := 0) (·.radio_ip) (Hytera.RadioIp.read_lossless) (fun radio_ip => ?_) (by returns) (by returns)
  refine Lossless.bind (m := 0) (·.cmd_type) (Lossless.asEnum Lossless.u1) (fun cmd_type => ?_) (by returns) (by returns)
  refine Lossless.bind (m := 0) (·.quick_gps_payload) (Lossless.optionally fun _ _ => (Hytera.LocationProtocol.QuickGpsPayload.read_lossless)) (fun quick_gps_payload => ?_) (by returns) (by returns)
  exact Lossless.pure rfl

open Dmr.Hytera in
theorem Hytera.LocationProtocol.ConditionReport.read_lossless : Lossless 0 (Hytera.LocationProtocol.ConditionReport.read) (Hytera.LocationProtocol.ConditionReport.read) 0 := by
  unfold Hytera.LocationProtocol.ConditionReport.read
  refine Lossless.bind (m := 0) (·.request_id) Lossless.u4be (fun request_id => ?_) (by returns) (by returns)
  refine Lossless.bind (m := 0) (·.radio_ip) (Hytera.RadioIp.read_lossless) (fun radio_ip => ?_) (by returns) (by returns)
  refine Lossless.bind (m := 0) (·.gpsdata) (Hytera.Gpsdata.read_lossless) (fun gpsdata => ?_) (by returns) (by returns)
  exact Lossless.pure rfl

open Dmr.Hytera in
theorem Hytera.LocationProtocol.EmergencyReportStopAnswer.read_lossless : Lossless 0 (Hytera.LocationProtocol.EmergencyReportStopAnswer.read) (Hytera.LocationProtocol.EmergencyReportStopAnswer.read) 0 := by
  unfold Hytera.LocationProtocol.EmergencyReportStopAnswer.read
  refine Lossless.bind (m := 0) (·.request_id) Lossless.u4be (fun request_id => ?_) (by returns) (by returns)
  refine Lossless.bind (m := 0) (·.radio_ip) (Hytera.RadioIp.read_lossless) (fun radio_ip => ?_) (by returns) (by returns)
  refine Lossless.bind (m := 0) (·.result) (Lossless.asEnum Lossless.u2be) (fun result => ?_) (by returns) (by returns)
  exact Lossless.pure rfl

open Dmr.Hytera in
theorem Hytera.LocationProtocol.ConditionReportAnswer.read_lossless : Lossless 0 (Hytera.LocationProtocol.ConditionReportAnswer.read) (Hytera.LocationProtocol.ConditionReportAnswer.read) 0 := by
  unfold Hytera.LocationProtocol.ConditionReportAnswer.read
  refine Lossless.bind (m := 0) (·.request_id) Lossless.u4be (fun request_id => ?_) (by returns) (by returns)
  refine Lossless.bind (m := 0) (·.radio_ip) (Hytera.RadioIp.read_lossless) (fun radio_ip => ?_) (by returns) (by returns)
  refine Lossless.bind (m := 0) (·.trigger_type) (Lossless.asEnum Lossless.u1) (fun trigger_type => ?_) (by returns) (by returns)
  refine Lossless.bind (m := 0) (·.result) (Lossless.asEnum Lossless.u2be) (fun result => ?_) (by returns) (by returns)
  exact Lossless.pure rfl

open Dmr.Hytera in
theorem Hytera.LocationProtocol.StandardAnswer.read_lossless : Lossless 0 (Hytera.LocationProtocol.StandardAnswer.read) (Hytera.LocationProtocol.StandardAnswer.read) 0 := by
  unfold Hytera.LocationProtocol.StandardAnswer.read
  refine Lossless.bind (m := 0) (·.request_id) Lossless.u4be (fun request_id => ?_) (by returns) (by returns)
  refine Lossless.bind (m := 0) (·.radio_ip) (Hytera.RadioIp.read_lossless) (fun radio_ip => ?_) (by returns) (by returns)
  refine Lossless.bind (m := 0) (·.result) (Lossless.asEnum Lossless.u2be) (fun result => ?_) (by returns) (by returns)
  refine Lossless.bind (m := 0) (·.gpsdata) (Hytera.Gpsdata.read_lossless) (fun gpsdata => ?_) (by returns) (by returns)
  exact Lossless.pure rfl

open Dmr.Hytera in
theorem Hytera.LocationProtocol.StandardRequest.read_lossless : Lossless 0 (Hytera.LocationProtocol.StandardRequest.read) (Hytera.LocationProtocol.StandardRequest.read) 0 := by
  unfold Hytera.LocationProtocol.StandardRequest.read
  refine Lossless.bind (m := 0) (·.request_id) Lossless.u4be (fun request_id => ?_) (by returns) (by returns)
  refine Lossless.bind (m := 0) (·.radio_ip) (Hytera.RadioIp.read_lossless) (fun radio_ip => ?_) (by returns) (by returns)
  exact Lossless.pure rfl

open Dmr.Hytera in
theorem Hytera.LocationProtocol.TriggeredReport.read_lossless : Lossless 0 (Hytera.LocationProtocol.TriggeredReport.read) (Hytera.LocationProtocol.TriggeredReport.read) 0 := by
  unfold Hytera.LocationProtocol.TriggeredReport.read
  refine Lossless.bind (m := 0) (·.request_id) Lossless.u4be (fun request_id => ?_) (by returns) (by returns)
  refine Lossless.bind (m := 0) (·.radio_ip) (Hytera.RadioIp.read_lossless) (fun radio_ip => ?_) (by returns) (by returns)
  refine Lossless.bind (m := 0) (·.time_remaining) (Hytera.Intervalstring.read_lossless) (fun time_remaining => ?_) (by returns) (by returns)
  refine Lossless.bind (m := 0) (·.gpsdata) (Hytera.Gpsdata.read_lossless) (fun gpsdata => ?_) (by returns) (by returns)
  exact Lossless.pure rfl

open Dmr.Hytera in
theorem Hytera.LocationProtocol.TriggeredReportStopAnswer.read_lossless : Lossless 0 (Hytera.LocationProtocol.TriggeredReportStopAnswer.read) (Hytera.LocationProtocol.TriggeredReportStopAnswer.read) 0 := by
  unfold Hytera.LocationProtocol.TriggeredReportStopAnswer.read
  refine Lossless.bind (m := 0) (·.request_id) Lossless.u4be (fun request_id => ?_) (by returns) (by returns)
  refine Lossless.bind (m := 0) (·.radio_ip) (Hytera.RadioIp.read_lossless) (fun radio_ip => ?_) (by returns) (by returns)
  refine Lossless.bind (m := 0) (·.result) (Lossless.asEnum Lossless.u2be) (fun result => ?_) (by returns) (by returns)
  exact Lossless.pure rfl

open Dmr.Hytera in
theorem Hytera.LocationProtocol.StandardAnswerWithRssi.read_lossless : Lossless 0 (Hytera.LocationProtocol.StandardAnswerWithRssi.read) (Hytera.LocationProtocol.StandardAnswerWithRssi.read) 0 := by
  unfold Hytera.LocationProtocol.StandardAnswerWithRssi.read
  refine Lossless.bind (m := 0) (·.request_id) Lossless.u4be (fun request_id => ?_) (by returns) (by returns)
  refine Lossless.bind (m := 0) (·.radio_ip) (Hytera.RadioIp.read_lossless) (fun radio_ip => ?_) (by returns) (by returns)
  refine Lossless.bind (m := 0) (·.result) (Lossless.asEnum Lossless.u2be) (fun result => ?_) (by returns) (by returns)
  refine Lossless.bind (m := 0) (·.gpsdata) (Hytera.Gpsdata.read_lossless) (fun gpsdata => ?_) (by returns) (by returns)
  refine Lossless.bind (m := 0) (·.rssi_value) Lossless.s2be (fun rssi_value => ?_) (by returns) (by returns)
  exact Lossless.pure rfl

open Dmr.Hytera in
theorem Hytera.LocationProtocol.ConditionReportWithRssi.read_lossless : Lossless 0 (Hytera.LocationProtocol.ConditionReportWithRssi.read) (Hytera.LocationProtocol.ConditionReportWithRssi.read) 0 := by
  unfold Hytera.LocationProtocol.ConditionReportWithRssi.read
  refine Lossless.bind (m := 0) (·.request_id) Lossless.u4be (fun request_id => ?_) (by returns) (by returns)
  refine Lossless.bind (m := 0) (·.radio_ip) (Hytera.RadioIp.read_lossless) (fun radio_ip => ?_) (by returns) (by returns)
  refine Lossless.bind (m := 0) (·.result) (Lossless.asEnum Lossless.u2be) (fun result => ?_) (by returns) (by returns)
  refine Lossless.bind (m := 0) (·.gpsdata) (Hytera.Gpsdata.read_lossless) (fun gpsdata => ?_) (by returns) (by returns)
  refine Lossless.bind (m := 0) (·.rssi_value) Lossless.s2be (fun rssi_value => ?_) (by returns) (by returns)
  exact Lossless.pure rfl

open Dmr.Hytera in
theorem Hytera.LocationProtocol.TriggeredReportStopRequest.read_lossless : Lossless 0 (Hytera.LocationProtocol.TriggeredReportStopRequest.read) (Hytera.LocationProtocol.TriggeredReportStopRequest.read) 0 := by
  unfold Hytera.LocationProtocol.TriggeredReportStopRequest.read
  refine Lossless.bind (m := 0) (·.request_id) Lossless.u4be (fun request_id => ?_) (by returns) (by returns)
  refine Lossless.bind (m := 0) (·.radio_ip) (Hytera.RadioIp.read_lossless) (fun radio_ip => ?_) (by returns) (by returns)
  exact Lossless.pure rfl

open Dmr.Hytera in
theorem Hytera.LocationProtocol.EmergencyReport.read_lossless : Lossless 0 (Hytera.LocationProtocol.EmergencyReport.read) (Hytera.LocationProtocol.EmergencyReport.read) 0 := by
  unfold Hytera.LocationProtocol.EmergencyReport.read
  refine Lossless.bind (m := 0) (·.radio_ip) (Hytera.RadioIp.read_lossless) (fun radio_ip => ?_) (by returns) (by returns)
  refine Lossless.bind (m := 0) (·.emergency_type) Lossless.u1 (fun emergency_type => ?_) (by returns) (by returns)
  refine Lossless.bind (m := 0) (·.gpsdata) (Hytera.Gpsdata.read_lossless) (fun gpsdata => ?_) (by returns) (by returns)
  exact Lossless.pure rfl

open Dmr.Hytera in
theorem Hytera.LocationProtocol.ConditionReportRequest.read_lossless : Lossless 0 (Hytera.LocationProtocol.ConditionReportRequest.read) (Hytera.LocationProtocol.ConditionReportRequest.read) 0 := by
  unfold Hytera.LocationProtocol.ConditionReportRequest.read
  refine Lossless.bind (m := 0) (·.request_id) Lossless.u4be (fun request_id => ?_) (by returns) (by returns)
  refine Lossless.bind (m := 0) (·.radio_ip) (Hytera.RadioIp.read_lossless) (fun radio_ip => ?_) (by returns) (by returns)
  refine Lossless.bind (m := 0) (·.trigger_type) Lossless.u1 (fun trigger_type => ?_) (by returns) (by returns)
  refine Lossless.bind (m := 0) (·.distance) Lossless.u4be (fun distance => ?_) (by returns) (by returns)
  refine Lossless.bind (m := 0) (·.start_time) (Hytera.Datetimestring.read_lossless) (fun start_time => ?_) (by returns) (by returns)
  refine Lossless.bind (m := 0) (·.stop_time) (Hytera.Datetimestring.read_lossless) (fun stop_time => ?_) (by returns) (by returns)
  refine Lossless.bind (m := 0) (·.interval) (Hytera.Intervalstring.read_lossless) (fun interval => ?_) (by returns) (by returns)
  refine Lossless.bind (m := 0) (·.max_interval) (Hytera.Intervalstring.read_lossless) (fun max_interval => ?_) (by returns) (by returns)
  exact Lossless.pure rfl

open Dmr.Hytera in
theorem Hytera.LocationProtocol.TriggeredReportRequest.read_lossless : Lossless 0 (Hytera.LocationProtocol.TriggeredReportRequest.read) (Hytera.LocationProtocol.TriggeredReportRequest.read) 0 := by
  unfold Hytera.LocationProtocol.TriggeredReportRequest.read
  refine Lossless.bind (m := 0) (·.request_id) Lossless.u4be (fun request_id => ?_) (by returns) (by returns)
  refine Lossless.bind (m := 0) (·.radio_ip) (Hytera.RadioIp.read_lossless) (fun radio_ip => ?_) (by returns) (by returns)
  refine Lossless.bind (m := 0) (·.start_time) (Hytera.Datetimestring.read_lossless) (fun start_time => ?_) (by returns) (by returns)
  refine Lossless.bind (m := 0) (·.stop_time) (Hytera.Datetimestring.read_lossless) (fun stop_time => ?_) (by returns) (by returns)
  refine Lossless.bind (m := 0) (·.interval) (Hytera.Intervalstring.read_lossless) (fun interval => ?_) (by returns) (by returns)
  exact Lossless.pure rfl

open Dmr.Hytera in
theorem Hytera.LocationProtocol.ConditionQuickGpsAnswer.read_lossless : Lossless 0 (Hytera.LocationProtocol.ConditionQuickGpsAnswer.read) (Hytera.LocationProtocol.ConditionQuickGpsAnswer.read) 0 := by
  unfold Hytera.LocationProtocol.ConditionQuickGpsAnswer.read
  refine Lossless.bind (m := 0) (·.request_id) Lossless.u4be (fun request_id => ?_) (by returns) (by returns)
  refine Lossless.bind (m := 0) (·.radio_ip) (Hytera.RadioIp.read_lossless) (fun radio_ip => ?_) (by returns) (by returns)
  refine Lossless.bind (m := 0) (·.cmd_type) (Lossless.asEnum Lossless.u1) (fun cmd_type => ?_) (by returns) (by returns)
  refine Lossless.bind (m := 0) (·.result) (Lossless.asEnum Lossless.u2be) (fun result => ?_) (by returns) (by returns)
  exact Lossless.pure rfl

open Dmr.Hytera in
theorem Hytera.LocationProtocol.readData_lossless (on : EnumVal LocationProtocol.LpSpecificTypes) : Lossless 0 (Hytera.LocationProtocol.readData on) (Hytera.LocationProtocol.readData on) 0 := by
  unfold Hytera.LocationProtocol.readData
  refine Lossless.ite (fun _ => Lossless.map (Hytera.LocationProtocol.TriggeredReportAnswer.read_lossless) fun _ _ h => by injections) fun _ => ?_
  refine Lossless.ite (fun _ => Lossless.map (Hytera.LocationProtocol.EmergencyReportStopRequest.read_lossless) fun _ _ h => by injections) fun _ => ?_
  refine Lossless.ite (fun _ => Lossless.map (Hytera.LocationProtocol.ConditionQuickGpsRequest.read_lossless) fun _ _ h => by injections) fun _ => ?_
  refine Lossless.ite (fun _ => Lossless.map (Hytera.LocationProtocol.ConditionReport.read_lossless) fun _ _ h => by injections) fun _ => ?_
  refine Lossless.ite (fun _ => Lossless.map (Hytera.LocationProtocol.EmergencyReportStopAnswer.read_lossless) fun _ _ h => by injections) fun _ => ?_
  refine Lossless.ite (fun _ => Lossless.map (Hytera.LocationProtocol.ConditionReportAnswer.read_lossless) fun _ _ h => by injections) fun _ => ?_
  refine Lossless.ite (fun _ => Lossless.map (Hytera.LocationProtocol.StandardAnswer.read_lossless) fun _ _ h => by injections) fun _ => ?_
  refine Lossless.ite (fun _ => Lossless.map (Hytera.LocationProtocol.StandardRequest.read_lossless) fun _ _ h => by injections) fun _ => ?_
  refine Lossless.ite (fun _ => Lossless.map (Hytera.LocationProtocol.TriggeredReport.read_lossless) fun _ _ h => by injections) fun _ => ?_
  refine Lossless.ite (fun _ => Lossless.map (Hytera.LocationProtocol.TriggeredReportStopAnswer.read_lossless) fun _ _ h => by injections) fun _ => ?_
  refine Lossless.ite (fun _ => Lossless.map (Hytera.LocationProtocol.StandardAnswerWithRssi.read_lossless) fun _ _ h => by injections) fun _ => ?_
  refine Lossless.ite (fun _ => Lossless.map (Hytera.LocationProtocol.ConditionReportWithRssi.read_lossless) fun _ _ h => by injections) fun _ => ?_
  refine Lossless.ite (fun _ => Lossless.map (Hytera.LocationProtocol.TriggeredReportStopRequest.read_lossless) fun _ _ h => by injections) fun _ => ?_
  refine Lossless.ite (fun _ => Lossless.map (Hytera.LocationProtocol.EmergencyReport.read_lossless) fun _ _ h => by injections) fun _ => ?_
  refine Lossless.ite (fun _ => Lossless.map (Hytera.LocationProtocol.ConditionReportRequest.read_lossless) fun _ _ h => by injections) fun _ => ?_
  refine Lossless.ite (fun _ => Lossless.map (Hytera.LocationProtocol.TriggeredReportRequest.read_lossless) fun _ _ h => by injections) fun _ => ?_
  refine Lossless.ite (fun _ => Lossless.map (Hytera.LocationProtocol.ConditionQuickGpsAnswer.read_lossless) fun _ _ h => by injections) fun _ => ?_
  exact Lossless.pure rfl

open Dmr.Hytera in
theorem Hytera.LocationProtocol.read_lossless : Lossless 0 (Hytera.LocationProtocol.read) (Hytera.LocationProtocol.read) 0 := by
  unfold Hytera.LocationProtocol.read
  refine Lossless.bind (m := 0) (·.opcode_header) (Lossless.asEnum Lossless.u2be) (fun opcode_header => ?_) (by returns) (by returns)
  refine Lossless.bind (m := 0) (·.message_length) Lossless.u2be (fun message_length => ?_) (by returns) (by returns)
  refine Lossless.bind (m := 0) (·.data) (Hytera.LocationProtocol.readData_lossless _) (fun data => ?_) (by returns) (by returns)
  exact Lossless.pure rfl

open Dmr.Hytera in
theorem Hytera.HyteraDmrApplicationProtocol.readData_lossless (on : EnumVal HyteraDmrApplicationProtocol.MessageHeaderTypes) : Lossless 0 (Hytera.HyteraDmrApplicationProtocol.readData on) (Hytera.HyteraDmrApplicationProtocol.readData on) 0 := by
  unfold Hytera.HyteraDmrApplicationProtocol.readData
  refine Lossless.ite (fun _ => Lossless.map (Hytera.RadioRegistrationService.read_lossless) fun _ _ h => by injections) fun _ => ?_
  refine Lossless.ite (fun _ => Lossless.map (Hytera.TelemetryProtocol.read_lossless) fun _ _ h => by injections) fun _ => ?_
  refine Lossless.ite (fun _ => Lossless.map (Hytera.RadioControlProtocol.read_lossless) fun _ _ h => by injections) fun _ => ?_
  refine Lossless.ite (fun _ => Lossless.map (Hytera.TextMessageProtocol.read_lossless) fun _ _ h => by injections) fun _ => ?_
  refine Lossless.ite (fun _ => Lossless.map (Hytera.DataDeliveryStates.read_lossless) fun _ _ h => by injections) fun _ => ?_
  refine Lossless.ite (fun _ => Lossless.map (Hytera.LocationProtocol.read_lossless) fun _ _ h => by injections) fun _ => ?_
  refine Lossless.ite (fun _ => Lossless.map (Hytera.DataTransmitProtocol.read_lossless) fun _ _ h => by injections) fun _ => ?_
  exact Lossless.pure rfl

open Dmr.Hytera in
theorem Hytera.HyteraDmrApplicationProtocol.read_lossless : Lossless 0 (Hytera.HyteraDmrApplicationProtocol.read) (Hytera.HyteraDmrApplicationProtocol.read) 0 := by
  unfold Hytera.HyteraDmrApplicationProtocol.read
  refine Lossless.bind (m := 1) (·.is_reliable_message) (Lossless.flag' rfl) (fun is_reliable_message => ?_) (by returns) (by returns)
  refine Lossless.bind (m := 0) (·.message_header) (Lossless.asEnum (Lossless.bits' 7 rfl)) (fun message_header => ?_) (by returns) (by returns)
  refine Lossless.align rfl ?_
  refine Lossless.bind (m := 0) (·.data) (Hytera.HyteraDmrApplicationProtocol.readData_lossless _) (fun data => ?_) (by returns) (by returns)
  refine Lossless.bind (m := 0) (·.checksum) Lossless.u1 (fun checksum => ?_) (by returns) (by returns)
  refine Lossless.bind (m := 0) (·.message_footer) (Lossless.bytes _) (fun message_footer => ?_) (by returns) (by returns)
  refine Lossless.validate ?_
  exact Lossless.pure rfl

open Dmr.Hytera in
theorem Hytera.HyteraRadioNetworkProtocol.read_lossless : Lossless 0 (Hytera.HyteraRadioNetworkProtocol.read) (Hytera.HyteraRadioNetworkProtocol.read) 0 := by
  unfold Hytera.HyteraRadioNetworkProtocol.read
  refine Lossless.bind (m := 0) (·.header_identifier) (Lossless.bytes _) (fun header_identifier => ?_) (by returns) (by returns)
  refine Lossless.validate ?_
  refine Lossless.bind (m := 0) (·.version) Lossless.u1 (fun version => ?_) (by returns) (by returns)
  refine Lossless.bind (m := 0) (·.block) Lossless.u1 (fun block => ?_) (by returns) (by returns)
  refine Lossless.bind (m := 0) (·.opcode) (Lossless.asEnum Lossless.u1) (fun opcode => ?_) (by returns) (by returns)
  refine Lossless.bind (m := 0) (·.source_id) Lossless.u1 (fun source_id => ?_) (by returns) (by returns)
  refine Lossless.bind (m := 0) (·.destination_id) Lossless.u1 (fun destination_id => ?_) (by returns) (by returns)
  refine Lossless.bind (m := 0) (·.packet_number) Lossless.u2be (fun packet_number => ?_) (by returns) (by returns)
  refine Lossless.bind (m := 0) (·.hrnp_packet_length) Lossless.u2be (fun hrnp_packet_length => ?_) (by returns) (by returns)
  refine Lossless.bind (m := 0) (·.checksum) Lossless.u2be (fun checksum => ?_) (by returns) (by returns)
  refine Lossless.bind (m := 0) (·.data) (Lossless.optionally fun _ _ => (Hytera.HyteraDmrApplicationProtocol.read_lossless)) (fun data => ?_) (by returns) (by returns)
  exact Lossless.pure rfl

open Dmr.Hytera in
theorem Hytera.HyteraSimpleTransportReliabilityProtocol.Option.read_lossless : Lossless 0 (Hytera.HyteraSimpleTransportReliabilityProtocol.Option.read) (Hytera.HyteraSimpleTransportReliabilityProtocol.Option.read) 0 := by
  unfold Hytera.HyteraSimpleTransportReliabilityProtocol.Option.read
  refine Lossless.bind (m := 1) (·.expect_more_options) (Lossless.flag' rfl) (fun expect_more_options => ?_) (by returns) (by returns)
  refine Lossless.bind (m := 0) (·.command) (Lossless.asEnum (Lossless.bits' 7 rfl)) (fun command => ?_) (by returns) (by returns)
  refine Lossless.align rfl ?_
  refine Lossless.bind (m := 0) (·.len_option_payload) Lossless.u1 (fun len_option_payload => ?_) (by returns) (by returns)
  refine Lossless.bind (m := 0) (·.option_payload) (Lossless.bytes _) (fun option_payload => ?_) (by returns) (by returns)
  exact Lossless.pure rfl

open Dmr.Hytera in
theorem Hytera.HyteraSimpleTransportReliabilityProtocol.read_lossless : Lossless 0 (Hytera.HyteraSimpleTransportReliabilityProtocol.read) (Hytera.HyteraSimpleTransportReliabilityProtocol.read) 0 := by
  unfold Hytera.HyteraSimpleTransportReliabilityProtocol.read
  refine Lossless.bind (m := 0) (·.header) (Lossless.bytes _) (fun header => ?_) (by returns) (by returns)
  refine Lossless.validate ?_
  refine Lossless.bind (m := 0) (·.version) Lossless.u1 (fun version => ?_) (by returns) (by returns)
  refine Lossless.bind (m := 2) (·.reserved) (Lossless.bits' 2 rfl) (fun reserved => ?_) (by returns) (by returns)
  refine Lossless.bind (m := 3) (·.has_option) (Lossless.flag' rfl) (fun has_option => ?_) (by returns) (by returns)
  refine Lossless.bind (m := 4) (·.is_reject) (Lossless.flag' rfl) (fun is_reject => ?_) (by returns) (by returns)
  refine Lossless.bind (m := 5) (·.is_close) (Lossless.flag' rfl) (fun is_close => ?_) (by returns) (by returns)
  refine Lossless.bind (m := 6) (·.is_connect) (Lossless.flag' rfl) (fun is_connect => ?_) (by returns) (by returns)
  refine Lossless.bind (m := 7) (·.is_heartbeat) (Lossless.flag' rfl) (fun is_heartbeat => ?_) (by returns) (by returns)
  refine Lossless.bind (m := 0) (·.is_ack) (Lossless.flag' rfl) (fun is_ack => ?_) (by returns) (by returns)
  refine Lossless.align rfl ?_
  refine Lossless.bind (m := 0) (·.sequence_number) Lossless.u2be (fun sequence_number => ?_) (by returns) (by returns)
  refine Lossless.isEof fun eof1 eof1' => ?_
  refine Lossless.loopFuel fun fuel fuel' => ?_
  refine Lossless.bind (m := 0) (·.options) (Lossless.optionally fun _ _ => (Lossless.repeatUntil (Hytera.HyteraSimpleTransportReliabilityProtocol.Option.read_lossless) (Lossless.stop_pure _) (Lossless.stop_pure _) _ _)) (fun options => ?_) (by returns) (by returns)
  refine Lossless.isEof fun eof2 eof2' => ?_
  refine Lossless.loopFuel fun fuel fuel' => ?_
  refine Lossless.bind (m := 0) (·.data) (Lossless.optionally fun _ _ => (Lossless.repeatEos (Hytera.HyteraDmrApplicationProtocol.read_lossless) _ _)) (fun data => ?_) (by returns) (by returns)
  refine Lossless.isEof fun eof3 eof3' => ?_
  refine Lossless.bind (m := 0) (·.extra_data) (Lossless.optionally fun _ _ => Lossless.full) (fun extra_data => ?_) (by returns) (by returns)
  exact Lossless.pure rfl

open Dmr.Hytera in
theorem Hytera.IpSiteConnectHeartbeat.Keepalive.read_lossless : Lossless 0 (Hytera.IpSiteConnectHeartbeat.Keepalive.read) (Hytera.IpSiteConnectHeartbeat.Keepalive.read) 0 := by
  unfold Hytera.IpSiteConnectHeartbeat.Keepalive.read
  refine Lossless.bind (m := 0) (·.nullbyte) (Lossless.bytes _) (fun nullbyte => ?_) (by returns) (by returns)
  refine Lossless.validate ?_
  exact Lossless.pure rfl

open Dmr.Hytera in
theorem Hytera.IpSiteConnectHeartbeat.PingPong.read_lossless : Lossless 0 (Hytera.IpSiteConnectHeartbeat.PingPong.read) (Hytera.IpSiteConnectHeartbeat.PingPong.read) 0 := by
  unfold Hytera.IpSiteConnectHeartbeat.PingPong.read
  refine Lossless.bind (m := 0) (·.header) (Lossless.bytes _) (fun header => ?_) (by returns) (by returns)
  refine Lossless.validate ?_
  refine Lossless.bind (m := 0) (·.heartbeat_identitier) (Lossless.bytes _) (fun heartbeat_identitier => ?_) (by returns) (by returns)
  refine Lossless.validate ?_
  refine Lossless.bind (m := 0) (·.nullbytes) (Lossless.bytes _) (fun nullbytes => ?_) (by returns) (by returns)
  refine Lossless.validate ?_
  refine Lossless.bind (m := 0) (·.heartbeat_seq) Lossless.u1 (fun heartbeat_seq => ?_) (by returns) (by returns)
  refine Lossless.bind (m := 0) (·.tail) (Lossless.bytes _) (fun tail => ?_) (by returns) (by returns)
  refine Lossless.validate ?_
  exact Lossless.pure rfl

open Dmr.Hytera in
theorem Hytera.IpSiteConnectHeartbeat.Unknown.read_lossless : Lossless 0 (Hytera.IpSiteConnectHeartbeat.Unknown.read) (Hytera.IpSiteConnectHeartbeat.Unknown.read) 0 := by
  unfold Hytera.IpSiteConnectHeartbeat.Unknown.read
  refine Lossless.bind (m := 0) (·.data) Lossless.full (fun data => ?_) (by returns) (by returns)
  exact Lossless.pure rfl

open Dmr.Hytera in
theorem Hytera.IpSiteConnectHeartbeat.readData_lossless (on : Nat) : Lossless 0 (Hytera.IpSiteConnectHeartbeat.readData on) (Hytera.IpSiteConnectHeartbeat.readData on) 0 := by
  unfold Hytera.IpSiteConnectHeartbeat.readData
  refine Lossless.ite (fun _ => Lossless.map (Hytera.IpSiteConnectHeartbeat.Keepalive.read_lossless) fun _ _ h => by injections) fun _ => ?_
  refine Lossless.ite (fun _ => Lossless.map (Hytera.IpSiteConnectHeartbeat.PingPong.read_lossless) fun _ _ h => by injections) fun _ => ?_
  exact Lossless.map (Hytera.IpSiteConnectHeartbeat.Unknown.read_lossless) fun _ _ h => by injections

open Dmr.Hytera in
theorem Hytera.IpSiteConnectHeartbeat.read_lossless : Lossless 0 (Hytera.IpSiteConnectHeartbeat.read) (Hytera.IpSiteConnectHeartbeat.read) 0 := by
  unfold Hytera.IpSiteConnectHeartbeat.read
  refine Lossless.peek Silent.size Silent.size fun n n' => ?_
  refine Lossless.bind (m := 0) (·.data) ?_ (fun _ => Lossless.pure rfl) (by returns) (by returns)
  unfold IpSiteConnectHeartbeat.readData
  repeat' split
  · exact Lossless.map Hytera.IpSiteConnectHeartbeat.Keepalive.read_lossless fun _ _ h => by injections
  · exact Lossless.clash (P := fun x => ∃ y, x = .keepalive y) (Returns.bind fun _ => Returns.pure ⟨_, rfl⟩) (Returns.bind fun _ => Returns.pure (by simp))
  · exact Lossless.clash (P := fun x => ∃ y, x = .keepalive y) (Returns.bind fun _ => Returns.pure ⟨_, rfl⟩) (Returns.bind fun _ => Returns.pure (by simp))
  · exact Lossless.clash (P := fun x => ∃ y, x = .pingPong y) (Returns.bind fun _ => Returns.pure ⟨_, rfl⟩) (Returns.bind fun _ => Returns.pure (by simp))
  · exact Lossless.map Hytera.IpSiteConnectHeartbeat.PingPong.read_lossless fun _ _ h => by injections
  · exact Lossless.clash (P := fun x => ∃ y, x = .pingPong y) (Returns.bind fun _ => Returns.pure ⟨_, rfl⟩) (Returns.bind fun _ => Returns.pure (by simp))
  · exact Lossless.clash (P := fun x => ∃ y, x = .unknown y) (Returns.bind fun _ => Returns.pure ⟨_, rfl⟩) (Returns.bind fun _ => Returns.pure (by simp))
  · exact Lossless.clash (P := fun x => ∃ y, x = .unknown y) (Returns.bind fun _ => Returns.pure ⟨_, rfl⟩) (Returns.bind fun _ => Returns.pure (by simp))
  · exact Lossless.map Hytera.IpSiteConnectHeartbeat.Unknown.read_lossless fun _ _ h => by injections

open Dmr.Hytera in
theorem Hytera.IpSiteConnectProtocol.read_lossless : Lossless 0 (Hytera.IpSiteConnectProtocol.read) (Hytera.IpSiteConnectProtocol.read) 0 := by
  unfold Hytera.IpSiteConnectProtocol.read
  refine Lossless.bind (m := 0) (·.source_port) (Lossless.bytes _) (fun source_port => ?_) (by returns) (by returns)
  refine Lossless.bind (m := 0) (·.fixed_header) (Lossless.bytes _) (fun fixed_header => ?_) (by returns) (by returns)
  refine Lossless.validate ?_
  refine Lossless.bind (m := 0) (·.sequence_number) Lossless.u1 (fun sequence_number => ?_) (by returns) (by returns)
  refine Lossless.bind (m := 0) (·.reserved_3) (Lossless.bytes _) (fun reserved_3 => ?_) (by returns) (by returns)
  refine Lossless.bind (m := 0) (·.packet_type) (Lossless.asEnum Lossless.u1) (fun packet_type => ?_) (by returns) (by returns)
  refine Lossless.bind (m := 0) (·.reserved_7a) (Lossless.bytes _) (fun reserved_7a => ?_) (by returns) (by returns)
  refine Lossless.bind (m := 0) (·.timeslot_raw) (Lossless.asEnum Lossless.u2be) (fun timeslot_raw => ?_) (by returns) (by returns)
  refine Lossless.bind (m := 0) (·.slot_type) (Lossless.asEnum Lossless.u2be) (fun slot_type => ?_) (by returns) (by returns)
  refine Lossless.bind (m := 0) (·.color_code_raw) Lossless.u2le (fun color_code_raw => ?_) (by returns) (by returns)
  refine Lossless.bind (m := 0) (·.frame_type) (Lossless.asEnum Lossless.u2be) (fun frame_type => ?_) (by returns) (by returns)
  refine Lossless.bind (m := 0) (·.reserved_2a) (Lossless.bytes _) (fun reserved_2a => ?_) (by returns) (by returns)
  refine Lossless.bind (m := 0) (·.ipsc_payload) (Lossless.bytes _) (fun ipsc_payload => ?_) (by returns) (by returns)
  refine Lossless.bind (m := 0) (·.reserved_2b) (Lossless.bytes _) (fun reserved_2b => ?_) (by returns) (by returns)
  refine Lossless.bind (m := 0) (·.call_type) (Lossless.asEnum Lossless.u1) (fun call_type => ?_) (by returns) (by returns)
  refine Lossless.bind (m := 0) (·.destination_radio_id_raw) Lossless.u4le (fun destination_radio_id_raw => ?_) (by returns) (by returns)
  refine Lossless.bind (m := 0) (·.source_radio_id_raw) Lossless.u4le (fun source_radio_id_raw => ?_) (by returns) (by returns)
  refine Lossless.bind (m := 0) (·.reserved_1b) Lossless.u1 (fun reserved_1b => ?_) (by returns) (by returns)
  refine Lossless.isEof fun eof1 eof1' => ?_
  refine Lossless.bind (m := 0) (·.extra_data) (Lossless.optionally fun _ _ => Lossless.full) (fun extra_data => ?_) (by returns) (by returns)
  exact Lossless.pure rfl

open Dmr.Hytera in
theorem Hytera.RadioId.read_lossless : Lossless 0 (Hytera.RadioId.read) (Hytera.RadioId.read) 0 := by
  unfold Hytera.RadioId.read
  refine Lossless.bind (m := 0) (·.radio_id_raw) Lossless.u4le (fun radio_id_raw => ?_) (by returns) (by returns)
  exact Lossless.pure rfl

open Dmr.Hytera in
theorem Hytera.RealTimeTransportProtocol.FixedHeader.read_lossless : Lossless 0 (Hytera.RealTimeTransportProtocol.FixedHeader.read) (Hytera.RealTimeTransportProtocol.FixedHeader.read) 0 := by
  unfold Hytera.RealTimeTransportProtocol.FixedHeader.read
  refine Lossless.bind (m := 2) (·.version) (Lossless.bits' 2 rfl) (fun version => ?_) (by returns) (by returns)
  refine Lossless.validate ?_
  refine Lossless.bind (m := 3) (·.padding) (Lossless.flag' rfl) (fun padding => ?_) (by returns) (by returns)
  refine Lossless.bind (m := 4) (·.extension) (Lossless.flag' rfl) (fun extension => ?_) (by returns) (by returns)
  refine Lossless.bind (m := 0) (·.num_csrc) (Lossless.bits' 4 rfl) (fun num_csrc => ?_) (by returns) (by returns)
  refine Lossless.bind (m := 1) (·.marker) (Lossless.flag' rfl) (fun marker => ?_) (by returns) (by returns)
  refine Lossless.bind (m := 0) (·.payload_type) (Lossless.bits' 7 rfl) (fun payload_type => ?_) (by returns) (by returns)
  refine Lossless.align rfl ?_
  refine Lossless.bind (m := 0) (·.sequence_number) Lossless.u2be (fun sequence_number => ?_) (by returns) (by returns)
  refine Lossless.bind (m := 0) (·.timestamp) Lossless.u4be (fun timestamp => ?_) (by returns) (by returns)
  refine Lossless.bind (m := 0) (·.ssrc) Lossless.u4be (fun ssrc => ?_) (by returns) (by returns)
  refine Lossless.bind (m := 0) (·.csrc) (Lossless.repeatN _ Lossless.u4be) (fun csrc => ?_) (by returns) (by returns)
  exact Lossless.pure rfl

open Dmr.Hytera in
theorem Hytera.RealTimeTransportProtocol.HeaderExtension.read_lossless : Lossless 0 (Hytera.RealTimeTransportProtocol.HeaderExtension.read) (Hytera.RealTimeTransportProtocol.HeaderExtension.read) 0 := by
  unfold Hytera.RealTimeTransportProtocol.HeaderExtension.read
  refine Lossless.bind (m := 0) (·.header_identifier) Lossless.u2be (fun header_identifier => ?_) (by returns) (by returns)
  refine Lossless.bind (m := 0) (·.length) Lossless.u2be (fun length => ?_) (by returns) (by returns)
  refine Lossless.bind (m := 7) (·.slot) (Lossless.bits' 7 rfl) (fun slot => ?_) (by returns) (by returns)
  refine Lossless.bind (m := 0) (·.last_flag) (Lossless.flag' rfl) (fun last_flag => ?_) (by returns) (by returns)
  refine Lossless.align rfl ?_
  refine Lossless.bind (m := 0) (·.source_id) (Hytera.RadioId.read_lossless) (fun source_id => ?_) (by returns) (by returns)
  refine Lossless.bind (m := 0) (·.destination_id) (Hytera.RadioId.read_lossless) (fun destination_id => ?_) (by returns) (by returns)
  refine Lossless.bind (m := 0) (·.call_type) (Lossless.asEnum Lossless.u1) (fun call_type => ?_) (by returns) (by returns)
  refine Lossless.bind (m := 0) (·.reserved) (Lossless.bytes _) (fun reserved => ?_) (by returns) (by returns)
  exact Lossless.pure rfl

open Dmr.Hytera in
theorem Hytera.RealTimeTransportProtocol.read_lossless : Lossless 0 (Hytera.RealTimeTransportProtocol.read) (Hytera.RealTimeTransportProtocol.read) 0 := by
  unfold Hytera.RealTimeTransportProtocol.read
  refine Lossless.bind (m := 0) (·.fixed_header) Hytera.RealTimeTransportProtocol.FixedHeader.read_lossless (fun fixed_header => ?_) (by returns) (by returns)
  refine Lossless.bind (m := 0) (·.header_extension) (Lossless.optionally fun _ _ => Hytera.RealTimeTransportProtocol.HeaderExtension.read_lossless) (fun _ => ?_) (by returns) (by returns)
  refine Lossless.peek Silent.size Silent.size fun n n' => ?_
  refine Lossless.peek Silent.pos Silent.pos fun q q' => ?_
  have hs : Silent (RealTimeTransportProtocol.lenPadding fixed_header) := by
    unfold RealTimeTransportProtocol.lenPadding RealTimeTransportProtocol.lenPaddingIfExists
    split
    · refine Silent.bind (Silent.optionally ?_) fun _ => Silent.pure _
      intro b q a s hq e
      rw [eval_bind, eval_posIo, andThen_ok, eval_bind, eval_sizeIo, andThen_ok] at e
      refine Silent.peek (b.length - 1) Bytewise.u1 b q a s hq ?_
      rw [eval_bind, eval_posIo, andThen_ok]
      exact e
    · exact Silent.pure _
  refine Lossless.bind (m := 0) (·.m_len_padding) (Lossless.ofSilent hs hs) (fun _ => ?_) (by returns) (by returns)
  refine Lossless.bind (m := 0) (·.audio_data) (Lossless.bytesInt₂ _ _) (fun _ => ?_) (by returns) (by returns)
  refine Lossless.bind (m := 0) (·.padding) (Lossless.optionally fun _ _ => Lossless.bytes _) (fun _ => ?_) (by returns) (by returns)
  exact Lossless.pure rfl

open Dmr.Motorola in
theorem Motorola.AutomaticRegistrationService.MessageHeaderBits.read_lossless : Lossless 0 (Motorola.AutomaticRegistrationService.MessageHeaderBits.read) (Motorola.AutomaticRegistrationService.MessageHeaderBits.read) 0 := by
  unfold Motorola.AutomaticRegistrationService.MessageHeaderBits.read
  refine Lossless.bind (m := 1) (·.extension_bit) (Lossless.flag' rfl) (fun extension_bit => ?_) (by returns) (by returns)
  refine Lossless.bind (m := 2) (·.acknowledgement_bit) (Lossless.flag' rfl) (fun acknowledgement_bit => ?_) (by returns) (by returns)
  refine Lossless.bind (m := 3) (·.priority) (Lossless.flag' rfl) (fun priority => ?_) (by returns) (by returns)
  refine Lossless.bind (m := 4) (·.control_user_bit) (Lossless.flag' rfl) (fun control_user_bit => ?_) (by returns) (by returns)
  refine Lossless.bind (m := 0) (·.pdu_type) (Lossless.bits' 4 rfl) (fun pdu_type => ?_) (by returns) (by returns)
  exact Lossless.pure rfl

open Dmr.Motorola in
theorem Motorola.AutomaticRegistrationService.DeviceRegistrationAcknowledgementHeader.read_lossless : Lossless 0 (Motorola.AutomaticRegistrationService.DeviceRegistrationAcknowledgementHeader.read) (Motorola.AutomaticRegistrationService.DeviceRegistrationAcknowledgementHeader.read) 0 := by
  unfold Motorola.AutomaticRegistrationService.DeviceRegistrationAcknowledgementHeader.read
  refine Lossless.bind (m := 1) (·.extension_bit) (Lossless.flag' rfl) (fun extension_bit => ?_) (by returns) (by returns)
  refine Lossless.bind (m := 0) (·.refresh_time) (Lossless.bits' 7 rfl) (fun refresh_time => ?_) (by returns) (by returns)
  exact Lossless.pure rfl

open Dmr.Motorola in
theorem Motorola.AutomaticRegistrationService.DeviceRegistrationAcknowledgementFailureReason.read_lossless : Lossless 0 (Motorola.AutomaticRegistrationService.DeviceRegistrationAcknowledgementFailureReason.read) (Motorola.AutomaticRegistrationService.DeviceRegistrationAcknowledgementFailureReason.read) 0 := by
  unfold Motorola.AutomaticRegistrationService.DeviceRegistrationAcknowledgementFailureReason.read
  refine Lossless.bind (m := 1) (·.extension_bit) (Lossless.flag' rfl) (fun extension_bit => ?_) (by returns) (by returns)
  refine Lossless.bind (m := 0) (·.failure_reason) (Lossless.asEnum (Lossless.bits' 7 rfl)) (fun failure_reason => ?_) (by returns) (by returns)
  exact Lossless.pure rfl

open Dmr.Motorola in
theorem Motorola.AutomaticRegistrationService.AcknowledgementMessage.read_lossless (root_message_header : AutomaticRegistrationService.MessageHeaderBits) : Lossless 0 (Motorola.AutomaticRegistrationService.AcknowledgementMessage.read root_message_header) (Motorola.AutomaticRegistrationService.AcknowledgementMessage.read root_message_header) 0 := by
  unfold Motorola.AutomaticRegistrationService.AcknowledgementMessage.read
  refine Lossless.bind (m := 0) (·.device_registration_acknowledgement_header) (Lossless.optionally fun _ _ => (Motorola.AutomaticRegistrationService.DeviceRegistrationAcknowledgementHeader.read_lossless)) (fun device_registration_acknowledgement_header => ?_) (by returns) (by returns)
  refine Lossless.bind (m := 0) (·.device_registration_acknowledgement_failure_reason) (Lossless.optionally fun _ _ => (Motorola.AutomaticRegistrationService.DeviceRegistrationAcknowledgementFailureReason.read_lossless)) (fun device_registration_acknowledgement_failure_reason => ?_) (by returns) (by returns)
  exact Lossless.pure rfl

open Dmr.Motorola in
theorem Motorola.AutomaticRegistrationService.DeviceRegistrationMessageHeader.read_lossless : Lossless 0 (Motorola.AutomaticRegistrationService.DeviceRegistrationMessageHeader.read) (Motorola.AutomaticRegistrationService.DeviceRegistrationMessageHeader.read) 0 := by
  unfold Motorola.AutomaticRegistrationService.DeviceRegistrationMessageHeader.read
  refine Lossless.bind (m := 1) (·.extension_bit) (Lossless.flag' rfl) (fun extension_bit => ?_) (by returns) (by returns)
  refine Lossless.bind (m := 3) (·.event) (Lossless.asEnum (Lossless.bits' 2 rfl)) (fun event => ?_) (by returns) (by returns)
  refine Lossless.bind (m := 0) (·.encoding) (Lossless.bits' 5 rfl) (fun encoding => ?_) (by returns) (by returns)
  exact Lossless.pure rfl

open Dmr.Motorola in
theorem Motorola.AutomaticRegistrationService.DeviceDeregistrationMessage.read_lossless : Lossless 0 (Motorola.AutomaticRegistrationService.DeviceDeregistrationMessage.read) (Motorola.AutomaticRegistrationService.DeviceDeregistrationMessage.read) 0 := by
  unfold Motorola.AutomaticRegistrationService.DeviceDeregistrationMessage.read
  exact Lossless.pure rfl

open Dmr.Motorola in
theorem Motorola.AutomaticRegistrationService.DeviceRegistrationMessage.read_lossless (root_message_header : AutomaticRegistrationService.MessageHeaderBits) : Lossless 0 (Motorola.AutomaticRegistrationService.DeviceRegistrationMessage.read root_message_header) (Motorola.AutomaticRegistrationService.DeviceRegistrationMessage.read root_message_header) 0 := by
  unfold Motorola.AutomaticRegistrationService.DeviceRegistrationMessage.read
  refine Lossless.bind (m := 0) (·.device_registration_message_header) (Lossless.optionally fun _ _ => (Motorola.AutomaticRegistrationService.DeviceRegistrationMessageHeader.read_lossless)) (fun device_registration_message_header => ?_) (by returns) (by returns)
  refine Lossless.bind (m := 0) (·.len_device_identifier) Lossless.u1 (fun len_device_identifier => ?_) (by returns) (by returns)
  refine Lossless.bind (m := 0) (·.device_identifier) (Lossless.optionally fun _ _ => (Lossless.bytes _)) (fun device_identifier => ?_) (by returns) (by returns)
  refine Lossless.bind (m := 0) (·.len_user_identifier) Lossless.u1 (fun len_user_identifier => ?_) (by returns) (by returns)
  refine Lossless.bind (m := 0) (·.user_identifier) (Lossless.optionally fun _ _ => (Lossless.bytes _)) (fun user_identifier => ?_) (by returns) (by returns)
  refine Lossless.bind (m := 0) (·.len_password) Lossless.u1 (fun len_password => ?_) (by returns) (by returns)
  refine Lossless.bind (m := 0) (·.password) (Lossless.optionally fun _ _ => (Lossless.bytes _)) (fun password => ?_) (by returns) (by returns)
  exact Lossless.pure rfl

open Dmr.Motorola in
theorem Motorola.AutomaticRegistrationService.ArsQueryMessage.read_lossless : Lossless 0 (Motorola.AutomaticRegistrationService.ArsQueryMessage.read) (Motorola.AutomaticRegistrationService.ArsQueryMessage.read) 0 := by
  unfold Motorola.AutomaticRegistrationService.ArsQueryMessage.read
  exact Lossless.pure rfl

open Dmr.Motorola in
theorem Motorola.AutomaticRegistrationService.readPduContent_lossless (on : Nat) (message_header : AutomaticRegistrationService.MessageHeaderBits) : Lossless 0 (Motorola.AutomaticRegistrationService.readPduContent on message_header) (Motorola.AutomaticRegistrationService.readPduContent on message_header) 0 := by
  unfold Motorola.AutomaticRegistrationService.readPduContent
  refine Lossless.ite (fun _ => Lossless.map (Motorola.AutomaticRegistrationService.DeviceRegistrationMessage.read_lossless _) fun _ _ h => by injections) fun _ => ?_
  refine Lossless.ite (fun _ => Lossless.map (Motorola.AutomaticRegistrationService.DeviceDeregistrationMessage.read_lossless) fun _ _ h => by injections) fun _ => ?_
  refine Lossless.ite (fun _ => Lossless.map (Motorola.AutomaticRegistrationService.ArsQueryMessage.read_lossless) fun _ _ h => by injections) fun _ => ?_
  refine Lossless.ite (fun _ => Lossless.map (Motorola.AutomaticRegistrationService.AcknowledgementMessage.read_lossless _) fun _ _ h => by injections) fun _ => ?_
  exact Lossless.pure rfl

open Dmr.Motorola in
theorem Motorola.AutomaticRegistrationService.read_lossless : Lossless 0 (Motorola.AutomaticRegistrationService.read) (Motorola.AutomaticRegistrationService.read) 0 := by
  unfold Motorola.AutomaticRegistrationService.read
  refine Lossless.bind (m := 0) (·.message_size) Lossless.u2le (fun message_size => ?_) (by returns) (by returns)
  refine Lossless.bind (m := 0) (·.message_header) (Motorola.AutomaticRegistrationService.MessageHeaderBits.read_lossless) (fun message_header => ?_) (by returns) (by returns)
  refine Lossless.bind (m := 0) (·.pdu_content) (Motorola.AutomaticRegistrationService.readPduContent_lossless _ _) (fun pdu_content => ?_) (by returns) (by returns)
  refine Lossless.bind (m := 0) (·.unparsed_data) Lossless.full (fun unparsed_data => ?_) (by returns) (by returns)
  exact Lossless.pure rfl

open Dmr.Motorola in
theorem Motorola.MotorolaBinaryXml.OpaqueElementValue.read_lossless : Lossless 0 (Motorola.MotorolaBinaryXml.OpaqueElementValue.read) (Motorola.MotorolaBinaryXml.OpaqueElementValue.read) 0 := by
  unfold Motorola.MotorolaBinaryXml.OpaqueElementValue.read
  refine Lossless.bind (m := 0) (·.len_value) Lossless.u1 (fun len_value => ?_) (by returns) (by returns)
  refine Lossless.bind (m := 0) (·.value) (Lossless.bytes _) (fun value => ?_) (by returns) (by returns)
  exact Lossless.pure rfl

open Dmr.Motorola in
theorem Motorola.MotorolaBinaryXml.Opaque1byteValue.read_lossless : Lossless 0 (Motorola.MotorolaBinaryXml.Opaque1byteValue.read) (Motorola.MotorolaBinaryXml.Opaque1byteValue.read) 0 := by
  unfold Motorola.MotorolaBinaryXml.Opaque1byteValue.read
  refine Lossless.bind (m := 0) (·.value) (Lossless.bytes _) (fun value => ?_) (by returns) (by returns)
  exact Lossless.pure rfl

open Dmr.Motorola in
theorem Motorola.MotorolaBinaryXml.Uintvar.read_lossless : Lossless 0 (Motorola.MotorolaBinaryXml.Uintvar.read) (Motorola.MotorolaBinaryXml.Uintvar.read) 0 := by
  unfold Motorola.MotorolaBinaryXml.Uintvar.read
  refine Lossless.loopFuel fun fuel fuel' => ?_
  refine Lossless.bind (m := 0) (·.payload) (Lossless.repeatUntil Lossless.u1 (Lossless.stop_eof _) (Lossless.stop_eof _) _ _) (fun payload => ?_) (by returns) (by returns)
  exact Lossless.pure rfl

open Dmr.Motorola in
theorem Motorola.MotorolaBinaryXml.ConstantDataTableReference.read_lossless : Lossless 0 (Motorola.MotorolaBinaryXml.ConstantDataTableReference.read) (Motorola.MotorolaBinaryXml.ConstantDataTableReference.read) 0 := by
  unfold Motorola.MotorolaBinaryXml.ConstantDataTableReference.read
  refine Lossless.bind (m := 0) (·.byte_offset_from_cdt_start) (Motorola.MotorolaBinaryXml.Uintvar.read_lossless) (fun byte_offset_from_cdt_start => ?_) (by returns) (by returns)
  exact Lossless.pure rfl

open Dmr.Motorola in
theorem Motorola.MotorolaBinaryXml.LrrpElement.readLrrpElementData_lossless (on : EnumVal MotorolaBinaryXml.LrrpElements) : Lossless 0 (Motorola.MotorolaBinaryXml.LrrpElement.readLrrpElementData on) (Motorola.MotorolaBinaryXml.LrrpElement.readLrrpElementData on) 0 := by
  unfold Motorola.MotorolaBinaryXml.LrrpElement.readLrrpElementData
  refine Lossless.ite (fun _ => Lossless.map (Motorola.MotorolaBinaryXml.OpaqueElementValue.read_lossless) fun _ _ h => by injections) fun _ => ?_
  refine Lossless.ite (fun _ => Lossless.map (Motorola.MotorolaBinaryXml.Opaque1byteValue.read_lossless) fun _ _ h => by injections) fun _ => ?_
  refine Lossless.ite (fun _ => Lossless.map (Motorola.MotorolaBinaryXml.ConstantDataTableReference.read_lossless) fun _ _ h => by injections) fun _ => ?_
  exact Lossless.pure rfl

open Dmr.Motorola in
theorem Motorola.MotorolaBinaryXml.LrrpElement.read_lossless : Lossless 0 (Motorola.MotorolaBinaryXml.LrrpElement.read) (Motorola.MotorolaBinaryXml.LrrpElement.read) 0 := by
  unfold Motorola.MotorolaBinaryXml.LrrpElement.read
  refine Lossless.bind (m := 0) (·.lrrp_element_type) (Lossless.asEnum Lossless.u1) (fun lrrp_element_type => ?_) (by returns) (by returns)
  refine Lossless.bind (m := 0) (·.lrrp_element_data) (Motorola.MotorolaBinaryXml.LrrpElement.readLrrpElementData_lossless _) (fun lrrp_element_data => ?_) (by returns) (by returns)
  exact Lossless.pure rfl

open Dmr.Motorola in
theorem Motorola.MotorolaBinaryXml.LrrpImmediateRequestNcdt.read_lossless : Lossless 0 (Motorola.MotorolaBinaryXml.LrrpImmediateRequestNcdt.read) (Motorola.MotorolaBinaryXml.LrrpImmediateRequestNcdt.read) 0 := by
  unfold Motorola.MotorolaBinaryXml.LrrpImmediateRequestNcdt.read
  refine Lossless.bind (m := 0) (·.elements) (Motorola.MotorolaBinaryXml.LrrpElement.read_lossless) (fun elements => ?_) (by returns) (by returns)
  exact Lossless.pure rfl

open Dmr.Motorola in
theorem Motorola.MotorolaBinaryXml.Opaque3byteValue.read_lossless : Lossless 0 (Motorola.MotorolaBinaryXml.Opaque3byteValue.read) (Motorola.MotorolaBinaryXml.Opaque3byteValue.read) 0 := by
  unfold Motorola.MotorolaBinaryXml.Opaque3byteValue.read
  refine Lossless.bind (m := 0) (·.value) (Lossless.bytes _) (fun value => ?_) (by returns) (by returns)
  exact Lossless.pure rfl

open Dmr.Motorola in
theorem Motorola.MotorolaBinaryXml.Sintvar.read_lossless : Lossless 0 (Motorola.MotorolaBinaryXml.Sintvar.read) (Motorola.MotorolaBinaryXml.Sintvar.read) 0 := by
  unfold Motorola.MotorolaBinaryXml.Sintvar.read
  refine Lossless.loopFuel fun fuel fuel' => ?_
  refine Lossless.bind (m := 0) (·.payload) (Lossless.repeatUntil Lossless.u1 (Lossless.stop_eof _) (Lossless.stop_eof _) _ _) (fun payload => ?_) (by returns) (by returns)
  exact Lossless.pure rfl

open Dmr.Motorola in
theorem Motorola.MotorolaBinaryXml.Sfloatvar.read_lossless : Lossless 0 (Motorola.MotorolaBinaryXml.Sfloatvar.read) (Motorola.MotorolaBinaryXml.Sfloatvar.read) 0 := by
  unfold Motorola.MotorolaBinaryXml.Sfloatvar.read
  refine Lossless.bind (m := 0) (·.sint_payload) (Motorola.MotorolaBinaryXml.Sintvar.read_lossless) (fun sint_payload => ?_) (by returns) (by returns)
  refine Lossless.bind (m := 0) (·.fraction_payload) (Motorola.MotorolaBinaryXml.Uintvar.read_lossless) (fun fraction_payload => ?_) (by returns) (by returns)
  exact Lossless.pure rfl

open Dmr.Motorola in
theorem Motorola.MotorolaBinaryXml.Opaque5byteValue.read_lossless : Lossless 0 (Motorola.MotorolaBinaryXml.Opaque5byteValue.read) (Motorola.MotorolaBinaryXml.Opaque5byteValue.read) 0 := by
  unfold Motorola.MotorolaBinaryXml.Opaque5byteValue.read
  refine Lossless.bind (m := 0) (·.value) (Lossless.bytes _) (fun value => ?_) (by returns) (by returns)
  exact Lossless.pure rfl

open Dmr.Motorola in
theorem Motorola.MotorolaBinaryXml.Ufloatvar.read_lossless : Lossless 0 (Motorola.MotorolaBinaryXml.Ufloatvar.read) (Motorola.MotorolaBinaryXml.Ufloatvar.read) 0 := by
  unfold Motorola.MotorolaBinaryXml.Ufloatvar.read
  refine Lossless.bind (m := 0) (·.uint_payload) (Motorola.MotorolaBinaryXml.Uintvar.read_lossless) (fun uint_payload => ?_) (by returns) (by returns)
  refine Lossless.bind (m := 0) (·.fraction_payload) (Motorola.MotorolaBinaryXml.Uintvar.read_lossless) (fun fraction_payload => ?_) (by returns) (by returns)
  exact Lossless.pure rfl

open Dmr.Motorola in
theorem Motorola.MotorolaBinaryXml.MbxmlDocument.readDocumentData_lossless (on : EnumVal MotorolaBinaryXml.Docids) : Lossless 0 (Motorola.MotorolaBinaryXml.MbxmlDocument.readDocumentData on) (Motorola.MotorolaBinaryXml.MbxmlDocument.readDocumentData on) 0 := by
  unfold Motorola.MotorolaBinaryXml.MbxmlDocument.readDocumentData
  refine Lossless.ite (fun _ => Lossless.map (Motorola.MotorolaBinaryXml.LrrpImmediateRequestNcdt.read_lossless) fun _ _ h => by injections) fun _ => ?_
  exact Lossless.pure rfl

open Dmr.Motorola in
theorem Motorola.MotorolaBinaryXml.MbxmlDocument.read_lossless : Lossless 0 (Motorola.MotorolaBinaryXml.MbxmlDocument.read) (Motorola.MotorolaBinaryXml.MbxmlDocument.read) 0 := by
  unfold Motorola.MotorolaBinaryXml.MbxmlDocument.read
  refine Lossless.bind (m := 0) (·.document_id) (Lossless.asEnum Lossless.u1) (fun document_id => ?_) (by returns) (by returns)
  refine Lossless.bind (m := 0) (·.num_document_bytes) (Motorola.MotorolaBinaryXml.Uintvar.read_lossless) (fun num_document_bytes => ?_) (by returns) (by returns)
  refine Lossless.bind (m := 0) (·.document_data) (Motorola.MotorolaBinaryXml.MbxmlDocument.readDocumentData_lossless _) (fun document_data => ?_) (by returns) (by returns)
  exact Lossless.pure rfl

open Dmr.Motorola in
theorem Motorola.MotorolaBinaryXml.Opaque2byteValue.read_lossless : Lossless 0 (Motorola.MotorolaBinaryXml.Opaque2byteValue.read) (Motorola.MotorolaBinaryXml.Opaque2byteValue.read) 0 := by
  unfold Motorola.MotorolaBinaryXml.Opaque2byteValue.read
  refine Lossless.bind (m := 0) (·.value) (Lossless.bytes _) (fun value => ?_) (by returns) (by returns)
  exact Lossless.pure rfl

open Dmr.Motorola in
theorem Motorola.MotorolaBinaryXml.Opaque4byteValue.read_lossless : Lossless 0 (Motorola.MotorolaBinaryXml.Opaque4byteValue.read) (Motorola.MotorolaBinaryXml.Opaque4byteValue.read) 0 := by
  unfold Motorola.MotorolaBinaryXml.Opaque4byteValue.read
  refine Lossless.bind (m := 0) (·.value) (Lossless.bytes _) (fun value => ?_) (by returns) (by returns)
  exact Lossless.pure rfl

open Dmr.Motorola in
theorem Motorola.MotorolaBinaryXml.read_lossless : Lossless 0 (Motorola.MotorolaBinaryXml.read) (Motorola.MotorolaBinaryXml.read) 0 := by
  unfold Motorola.MotorolaBinaryXml.read
  refine Lossless.loopFuel fun fuel fuel' => ?_
  refine Lossless.bind (m := 0) (·.documents) (Lossless.repeatUntil (Motorola.MotorolaBinaryXml.MbxmlDocument.read_lossless) (Lossless.stop_eof _) (Lossless.stop_eof _) _ _) (fun documents => ?_) (by returns) (by returns)
  exact Lossless.pure rfl

open Dmr.Motorola in
theorem Motorola.TextMessageProtocol.MessageHeaderBits.read_lossless : Lossless 0 (Motorola.TextMessageProtocol.MessageHeaderBits.read) (Motorola.TextMessageProtocol.MessageHeaderBits.read) 0 := by
  unfold Motorola.TextMessageProtocol.MessageHeaderBits.read
  refine Lossless.bind (m := 1) (·.extension_bit) (Lossless.flag' rfl) (fun extension_bit => ?_) (by returns) (by returns)
  refine Lossless.bind (m := 2) (·.acknowledgement_required) (Lossless.flag' rfl) (fun acknowledgement_required => ?_) (by returns) (by returns)
  refine Lossless.bind (m := 3) (·.reserved) (Lossless.flag' rfl) (fun reserved => ?_) (by returns) (by returns)
  refine Lossless.bind (m := 4) (·.control_user_bit) (Lossless.flag' rfl) (fun control_user_bit => ?_) (by returns) (by returns)
  refine Lossless.bind (m := 0) (·.pdu_type) (Lossless.bits' 4 rfl) (fun pdu_type => ?_) (by returns) (by returns)
  exact Lossless.pure rfl

open Dmr.Motorola in
theorem Motorola.TextMessageProtocol.TmsServiceAvailabilityHeader.read_lossless : Lossless 0 (Motorola.TextMessageProtocol.TmsServiceAvailabilityHeader.read) (Motorola.TextMessageProtocol.TmsServiceAvailabilityHeader.read) 0 := by
  unfold Motorola.TextMessageProtocol.TmsServiceAvailabilityHeader.read
  refine Lossless.bind (m := 1) (·.extension_bit) (Lossless.flag' rfl) (fun extension_bit => ?_) (by returns) (by returns)
  refine Lossless.bind (m := 5) (·.reserved) (Lossless.bits' 4 rfl) (fun reserved => ?_) (by returns) (by returns)
  refine Lossless.bind (m := 0) (·.device) (Lossless.asEnum (Lossless.bits' 3 rfl)) (fun device => ?_) (by returns) (by returns)
  exact Lossless.pure rfl

open Dmr.Motorola in
theorem Motorola.TextMessageProtocol.TmsServiceAvailability.read_lossless (root_message_header : TextMessageProtocol.MessageHeaderBits) : Lossless 0 (Motorola.TextMessageProtocol.TmsServiceAvailability.read root_message_header) (Motorola.TextMessageProtocol.TmsServiceAvailability.read root_message_header) 0 := by
  unfold Motorola.TextMessageProtocol.TmsServiceAvailability.read
  refine Lossless.bind (m := 0) (·.header) (Lossless.optionally fun _ _ => (Motorola.TextMessageProtocol.TmsServiceAvailabilityHeader.read_lossless)) (fun header => ?_) (by returns) (by returns)
  exact Lossless.pure rfl

open Dmr.Motorola in
theorem Motorola.TextMessageProtocol.TmsAcknowledgementHeaderSequenceNumber.read_lossless : Lossless 0 (Motorola.TextMessageProtocol.TmsAcknowledgementHeaderSequenceNumber.read) (Motorola.TextMessageProtocol.TmsAcknowledgementHeaderSequenceNumber.read) 0 := by
  unfold Motorola.TextMessageProtocol.TmsAcknowledgementHeaderSequenceNumber.read
  refine Lossless.bind (m := 1) (·.has_msb_header) (Lossless.flag' rfl) (fun has_msb_header => ?_) (by returns) (by returns)
  refine Lossless.bind (m := 3) (·.header_lsb_reserved) (Lossless.bits' 2 rfl) (fun _ => ?_) (by returns) (by returns)
  refine Lossless.bind (m := 0) (·.header_lsb_bits) (Lossless.bits' 5 rfl) (fun _ => ?_) (by returns) (by returns)
  cases has_msb_header
  · exact Lossless.pure rfl
  · refine Lossless.bind (m := 1) (·.header_msb_extension) (Lossless.optTrue (Lossless.flag' rfl)) (fun _ => ?_) (by returns) (by returns)
    refine Lossless.bind (m := 3) (·.header_msb_bits) (Lossless.optTrue (Lossless.bits' 2 rfl)) (fun _ => ?_) (by returns) (by returns)
    refine Lossless.bind (m := 0) (·.header_msb_reserved) (Lossless.optTrue (Lossless.bits' 5 rfl)) (fun _ => ?_) (by returns) (by returns)
    exact Lossless.pure rfl

open Dmr.Motorola in
theorem Motorola.TextMessageProtocol.TmsAcknowledgement.read_lossless (root_message_header : TextMessageProtocol.MessageHeaderBits) : Lossless 0 (Motorola.TextMessageProtocol.TmsAcknowledgement.read root_message_header) (Motorola.TextMessageProtocol.TmsAcknowledgement.read root_message_header) 0 := by
  unfold Motorola.TextMessageProtocol.TmsAcknowledgement.read
  refine Lossless.bind (m := 0) (·.tms_acknowledgement_header_sequence_number) (Lossless.optionally fun _ _ => (Motorola.TextMessageProtocol.TmsAcknowledgementHeaderSequenceNumber.read_lossless)) (fun tms_acknowledgement_header_sequence_number => ?_) (by returns) (by returns)
  exact Lossless.pure rfl

open Dmr.Motorola in
theorem Motorola.TextMessageProtocol.TmsServiceAvailabilityAcknowledgement.read_lossless : Lossless 0 (Motorola.TextMessageProtocol.TmsServiceAvailabilityAcknowledgement.read) (Motorola.TextMessageProtocol.TmsServiceAvailabilityAcknowledgement.read) 0 := by
  unfold Motorola.TextMessageProtocol.TmsServiceAvailabilityAcknowledgement.read
  exact Lossless.pure rfl

end Dmr
