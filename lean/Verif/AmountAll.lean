import Verif.Amount
import Verif.Model.Tools.PyView
/-
`Fits` for every decoder (generated by tools/mkamount.py).
-/

set_option linter.unusedVariables false
set_option linter.unusedSimpArgs false

namespace Dmr

/-- What a cached letter holds. -/
def fifthW (o : Option PyVal) : Nat := optW PyVal.amount o

theorem amount_fifth {α : Type} (n : String) (o : Option α) (f : α → Option PyVal) :
    PyVal.amountAttrs (PyVal.optAttr n (o.bind f)) = optW (fun x => fifthW (f x)) o := by
  cases o with
  | none => rfl
  | some x =>
    show PyVal.amountAttrs (PyVal.optAttr n (f x)) = optW PyVal.amount (f x)
    cases f x <;> simp [PyVal.optAttr, PyVal.amountAttrs, optW]

open Dmr.Homebrew in
theorem Homebrew.Homebrew2015.fifthW_le (x : Homebrew.Homebrew2015.TypeRepeaterConfigurationOrClosing) :
    fifthW (Homebrew.Homebrew2015.CommandDataUnion.fifthLetter (.typeRepeaterConfigurationOrClosing x)) ≤ 1 := by
  obtain ⟨_ | _⟩ := x <;> simp [Homebrew.Homebrew2015.CommandDataUnion.fifthLetter, fifthW, optW, PyVal.amount]

open Dmr.Homebrew in
theorem Homebrew.Mmdvm2020.fifthW_le (x : Homebrew.Mmdvm2020.TypeRepeaterConfigurationOrClosing) :
    fifthW (Homebrew.Mmdvm2020.CommandDataUnion.fifthLetter (.typeRepeaterConfigurationOrClosing x)) ≤ 1 := by
  obtain ⟨_ | _⟩ := x <;> simp [Homebrew.Mmdvm2020.CommandDataUnion.fifthLetter, fifthW, optW, PyVal.amount]

open Dmr.Etsi in
theorem Etsi.DmrCsbk.NegativeAckResponseData.read_fits :
    Fits 0 0 (Etsi.DmrCsbk.NegativeAckResponseData.read) (fun x => 8 * PyVal.amount (Etsi.DmrCsbk.NegativeAckResponseData.toPy x)) 0 := by
  unfold Etsi.DmrCsbk.NegativeAckResponseData.read
  refine Fits.bind 1 (Fits.flag (by decide)) fun additional_information_field => ?_
  refine Fits.bind 2 (Fits.flag (by decide)) fun source_type => ?_
  refine Fits.bind 0 (Fits.bits 6 (by decide)) fun service_type => ?_
  refine Fits.bind 0 (Fits.bits 8 (by decide)) fun reason_code => ?_
  refine Fits.bind 0 (Fits.bits 24 (by decide)) fun source_address => ?_
  refine Fits.bind 0 (Fits.bits 24 (by decide)) fun target_address => ?_
  exact Fits.pure (by decide) (by weigh [Etsi.DmrCsbk.NegativeAckResponseData.toPy])

open Dmr.Etsi in
theorem Etsi.DmrCsbk.ServiceOptions.read_fits :
    Fits 0 0 (Etsi.DmrCsbk.ServiceOptions.read) (fun x => 8 * PyVal.amount (Etsi.DmrCsbk.ServiceOptions.toPy x)) 0 := by
  unfold Etsi.DmrCsbk.ServiceOptions.read
  refine Fits.bind 1 (Fits.flag (by decide)) fun is_emergency_service => ?_
  refine Fits.bind 2 (Fits.flag (by decide)) fun privacy => ?_
  refine Fits.bind 4 (Fits.bits 2 (by decide)) fun reserved => ?_
  refine Fits.bind 5 (Fits.flag (by decide)) fun is_broadcast_service => ?_
  refine Fits.bind 6 (Fits.flag (by decide)) fun is_open_voice_call_mode => ?_
  refine Fits.bind 0 (Fits.bits 2 (by decide)) fun priority_level => ?_
  exact Fits.pure (by decide) (by weigh [Etsi.DmrCsbk.ServiceOptions.toPy])

open Dmr.Etsi in
theorem Etsi.DmrCsbk.UnitToUnitVoiceRequestData.read_fits :
    Fits 0 0 (Etsi.DmrCsbk.UnitToUnitVoiceRequestData.read) (fun x => 8 * PyVal.amount (Etsi.DmrCsbk.UnitToUnitVoiceRequestData.toPy x)) 0 := by
  unfold Etsi.DmrCsbk.UnitToUnitVoiceRequestData.read
  refine Fits.bind 0 (Etsi.DmrCsbk.ServiceOptions.read_fits) fun service_options => ?_
  refine Fits.bind 0 (Fits.bits 8 (by decide)) fun reserved => ?_
  refine Fits.bind 0 (Fits.bits 24 (by decide)) fun target_address => ?_
  refine Fits.bind 0 (Fits.bits 24 (by decide)) fun source_address => ?_
  exact Fits.pure (by decide) (by weigh [Etsi.DmrCsbk.UnitToUnitVoiceRequestData.toPy])

open Dmr.Etsi in
theorem Etsi.DmrCsbk.PreambleData.read_fits :
    Fits 0 0 (Etsi.DmrCsbk.PreambleData.read) (fun x => 8 * PyVal.amount (Etsi.DmrCsbk.PreambleData.toPy x)) 0 := by
  unfold Etsi.DmrCsbk.PreambleData.read
  refine Fits.bind 1 (Fits.asEnum (Fits.bits 1 (by decide))) fun preamble_data_or_csbk => ?_
  refine Fits.bind 2 (Fits.asEnum (Fits.bits 1 (by decide))) fun group_or_individual => ?_
  refine Fits.bind 0 (Fits.bits 6 (by decide)) fun preamble_reserved => ?_
  refine Fits.bind 0 (Fits.bits 8 (by decide)) fun preamble_csbk_blocks_to_follow => ?_
  refine Fits.bind 0 (Fits.bits 24 (by decide)) fun target_address => ?_
  refine Fits.bind 0 (Fits.bits 24 (by decide)) fun source_address => ?_
  exact Fits.pure (by decide) (by weigh [Etsi.DmrCsbk.PreambleData.toPy])

open Dmr.Etsi in
theorem Etsi.DmrCsbk.ChannelTimingData.read_fits :
    Fits 0 0 (Etsi.DmrCsbk.ChannelTimingData.read) (fun x => 8 * PyVal.amount (Etsi.DmrCsbk.ChannelTimingData.toPy x)) 0 := by
  unfold Etsi.DmrCsbk.ChannelTimingData.read
  refine Fits.bind 3 (Fits.bits 11 (by decide)) fun sync_age => ?_
  refine Fits.bind 0 (Fits.bits 5 (by decide)) fun generation => ?_
  refine Fits.bind 4 (Fits.bits 20 (by decide)) fun leader_identifier => ?_
  refine Fits.bind 5 (Fits.flag (by decide)) fun new_leader => ?_
  refine Fits.bind 7 (Fits.bits 2 (by decide)) fun leader_dynamic_identifier => ?_
  refine Fits.bind 0 (Fits.flag (by decide)) fun channel_timing_op1 => ?_
  refine Fits.bind 4 (Fits.bits 20 (by decide)) fun source_identifier => ?_
  refine Fits.bind 5 (Fits.flag (by decide)) fun reserved => ?_
  refine Fits.bind 7 (Fits.bits 2 (by decide)) fun source_dynamic_identifier => ?_
  refine Fits.bind 0 (Fits.flag (by decide)) fun channel_timing_op0 => ?_
  exact Fits.pure (by decide) (by weigh [Etsi.DmrCsbk.ChannelTimingData.toPy])

open Dmr.Etsi in
theorem Etsi.DmrCsbk.BsOutboundActivationData.read_fits :
    Fits 0 0 (Etsi.DmrCsbk.BsOutboundActivationData.read) (fun x => 8 * PyVal.amount (Etsi.DmrCsbk.BsOutboundActivationData.toPy x)) 0 := by
  unfold Etsi.DmrCsbk.BsOutboundActivationData.read
  refine Fits.bind 0 (Fits.bits 16 (by decide)) fun reserved => ?_
  refine Fits.bind 0 (Fits.bits 24 (by decide)) fun bs_address => ?_
  refine Fits.bind 0 (Fits.bits 24 (by decide)) fun source_address => ?_
  exact Fits.pure (by decide) (by weigh [Etsi.DmrCsbk.BsOutboundActivationData.toPy])

open Dmr.Etsi in
theorem Etsi.DmrCsbk.UnitToUnitVoiceAnswerData.read_fits :
    Fits 0 0 (Etsi.DmrCsbk.UnitToUnitVoiceAnswerData.read) (fun x => 8 * PyVal.amount (Etsi.DmrCsbk.UnitToUnitVoiceAnswerData.toPy x)) 0 := by
  unfold Etsi.DmrCsbk.UnitToUnitVoiceAnswerData.read
  refine Fits.bind 0 (Etsi.DmrCsbk.ServiceOptions.read_fits) fun service_options => ?_
  refine Fits.bind 0 (Fits.asEnum (Fits.bits 8 (by decide))) fun answer_response => ?_
  refine Fits.bind 0 (Fits.bits 24 (by decide)) fun target_address => ?_
  refine Fits.bind 0 (Fits.bits 24 (by decide)) fun source_address => ?_
  exact Fits.pure (by decide) (by weigh [Etsi.DmrCsbk.UnitToUnitVoiceAnswerData.toPy])

open Dmr.Etsi in
theorem Etsi.DmrCsbk.readCsbkData_fits (on : EnumVal DmrCsbk.CsbkoTypes) :
    Fits 0 0 (Etsi.DmrCsbk.readCsbkData on) (fun x => optW (fun y => 8 * PyVal.amount (Etsi.DmrCsbk.CsbkDataUnion.toPy y)) x) 0 := by
  unfold Etsi.DmrCsbk.readCsbkData
  refine Fits.ite (fun _ => Fits.map (Etsi.DmrCsbk.UnitToUnitVoiceAnswerData.read_fits) fun _ => by weigh [Etsi.DmrCsbk.CsbkDataUnion.toPy]) fun _ => ?_
  refine Fits.ite (fun _ => Fits.map (Etsi.DmrCsbk.PreambleData.read_fits) fun _ => by weigh [Etsi.DmrCsbk.CsbkDataUnion.toPy]) fun _ => ?_
  refine Fits.ite (fun _ => Fits.map (Etsi.DmrCsbk.ChannelTimingData.read_fits) fun _ => by weigh [Etsi.DmrCsbk.CsbkDataUnion.toPy]) fun _ => ?_
  refine Fits.ite (fun _ => Fits.map (Etsi.DmrCsbk.UnitToUnitVoiceRequestData.read_fits) fun _ => by weigh [Etsi.DmrCsbk.CsbkDataUnion.toPy]) fun _ => ?_
  refine Fits.ite (fun _ => Fits.map (Etsi.DmrCsbk.BsOutboundActivationData.read_fits) fun _ => by weigh [Etsi.DmrCsbk.CsbkDataUnion.toPy]) fun _ => ?_
  refine Fits.ite (fun _ => Fits.map (Etsi.DmrCsbk.NegativeAckResponseData.read_fits) fun _ => by weigh [Etsi.DmrCsbk.CsbkDataUnion.toPy]) fun _ => ?_
  exact Fits.pure (by decide) (Nat.zero_le _)

open Dmr.Etsi in
theorem Etsi.DmrCsbk.read_fits :
    Fits 0 0 (Etsi.DmrCsbk.read) (fun x => 8 * PyVal.amount (Etsi.DmrCsbk.toPy x)) 0 := by
  unfold Etsi.DmrCsbk.read
  refine Fits.bind 1 (Fits.flag (by decide)) fun last_block => ?_
  refine Fits.bind 2 (Fits.flag (by decide)) fun protect_flag => ?_
  refine Fits.bind 0 (Fits.asEnum (Fits.bits 6 (by decide))) fun csbk_opcode => ?_
  refine Fits.bind 0 (Fits.bits 8 (by decide)) fun feature_set_id => ?_
  refine Fits.align ?_
  refine Fits.bind 0 (Etsi.DmrCsbk.readCsbkData_fits _) fun csbk_data => ?_
  exact Fits.pure (by decide) (by weigh [Etsi.DmrCsbk.toPy])

open Dmr.Etsi in
theorem Etsi.DmrData.Rate1LastBlockUnconfirmed.read_fits :
    Fits 0 0 (Etsi.DmrData.Rate1LastBlockUnconfirmed.read) (fun x => 8 * PyVal.amount (Etsi.DmrData.Rate1LastBlockUnconfirmed.toPy x)) 0 := by
  unfold Etsi.DmrData.Rate1LastBlockUnconfirmed.read
  refine Fits.bind 0 (Fits.bytes _) fun user_data => ?_
  refine Fits.bind 0 (Fits.bytes _) fun message_crc32 => ?_
  exact Fits.pure (by decide) (by weigh [Etsi.DmrData.Rate1LastBlockUnconfirmed.toPy])

open Dmr.Etsi in
theorem Etsi.DmrData.Rate12LastBlockConfirmed.read_fits :
    Fits 0 0 (Etsi.DmrData.Rate12LastBlockConfirmed.read) (fun x => 8 * PyVal.amount (Etsi.DmrData.Rate12LastBlockConfirmed.toPy x)) 0 := by
  unfold Etsi.DmrData.Rate12LastBlockConfirmed.read
  refine Fits.bind 7 (Fits.bits 7 (by decide)) fun data_block_serial_number => ?_
  refine Fits.bind 0 (Fits.bits 9 (by decide)) fun crc9 => ?_
  refine Fits.align ?_
  refine Fits.bind 0 (Fits.bytes _) fun user_data => ?_
  refine Fits.bind 0 (Fits.bytes _) fun message_crc32 => ?_
  exact Fits.pure (by decide) (by weigh [Etsi.DmrData.Rate12LastBlockConfirmed.toPy])

open Dmr.Etsi in
theorem Etsi.DmrData.Rate12Confirmed.read_fits :
    Fits 0 0 (Etsi.DmrData.Rate12Confirmed.read) (fun x => 8 * PyVal.amount (Etsi.DmrData.Rate12Confirmed.toPy x)) 0 := by
  unfold Etsi.DmrData.Rate12Confirmed.read
  refine Fits.bind 7 (Fits.bits 7 (by decide)) fun data_block_serial_number => ?_
  refine Fits.bind 0 (Fits.bits 9 (by decide)) fun crc9 => ?_
  refine Fits.align ?_
  refine Fits.bind 0 (Fits.bytes _) fun user_data => ?_
  exact Fits.pure (by decide) (by weigh [Etsi.DmrData.Rate12Confirmed.toPy])

open Dmr.Etsi in
theorem Etsi.DmrData.Rate34LastBlockUnconfirmed.read_fits :
    Fits 0 0 (Etsi.DmrData.Rate34LastBlockUnconfirmed.read) (fun x => 8 * PyVal.amount (Etsi.DmrData.Rate34LastBlockUnconfirmed.toPy x)) 0 := by
  unfold Etsi.DmrData.Rate34LastBlockUnconfirmed.read
  refine Fits.bind 0 (Fits.bytes _) fun user_data => ?_
  refine Fits.bind 0 (Fits.bytes _) fun message_crc32 => ?_
  exact Fits.pure (by decide) (by weigh [Etsi.DmrData.Rate34LastBlockUnconfirmed.toPy])

open Dmr.Etsi in
theorem Etsi.DmrData.Rate1LastBlockConfirmed.read_fits :
    Fits 0 0 (Etsi.DmrData.Rate1LastBlockConfirmed.read) (fun x => 8 * PyVal.amount (Etsi.DmrData.Rate1LastBlockConfirmed.toPy x)) 0 := by
  unfold Etsi.DmrData.Rate1LastBlockConfirmed.read
  refine Fits.bind 7 (Fits.bits 7 (by decide)) fun data_block_serial_number => ?_
  refine Fits.bind 0 (Fits.bits 9 (by decide)) fun crc9 => ?_
  refine Fits.align ?_
  refine Fits.bind 0 (Fits.bytes _) fun user_data => ?_
  refine Fits.bind 0 (Fits.bytes _) fun message_crc32 => ?_
  exact Fits.pure (by decide) (by weigh [Etsi.DmrData.Rate1LastBlockConfirmed.toPy])

open Dmr.Etsi in
theorem Etsi.DmrData.Rate1Unconfirmed.read_fits :
    Fits 0 0 (Etsi.DmrData.Rate1Unconfirmed.read) (fun x => 8 * PyVal.amount (Etsi.DmrData.Rate1Unconfirmed.toPy x)) 0 := by
  unfold Etsi.DmrData.Rate1Unconfirmed.read
  refine Fits.bind 0 (Fits.bytes _) fun user_data => ?_
  exact Fits.pure (by decide) (by weigh [Etsi.DmrData.Rate1Unconfirmed.toPy])

open Dmr.Etsi in
theorem Etsi.DmrData.UdtLastBlock.read_fits :
    Fits 0 0 (Etsi.DmrData.UdtLastBlock.read) (fun x => 8 * PyVal.amount (Etsi.DmrData.UdtLastBlock.toPy x)) 0 := by
  unfold Etsi.DmrData.UdtLastBlock.read
  refine Fits.bind 0 (Fits.bytes _) fun user_data => ?_
  refine Fits.bind 0 (Fits.bytes _) fun message_crc16 => ?_
  exact Fits.pure (by decide) (by weigh [Etsi.DmrData.UdtLastBlock.toPy])

open Dmr.Etsi in
theorem Etsi.DmrData.Rate34Confirmed.read_fits :
    Fits 0 0 (Etsi.DmrData.Rate34Confirmed.read) (fun x => 8 * PyVal.amount (Etsi.DmrData.Rate34Confirmed.toPy x)) 0 := by
  unfold Etsi.DmrData.Rate34Confirmed.read
  refine Fits.bind 7 (Fits.bits 7 (by decide)) fun data_block_serial_number => ?_
  refine Fits.bind 0 (Fits.bits 9 (by decide)) fun crc9 => ?_
  refine Fits.align ?_
  refine Fits.bind 0 (Fits.bytes _) fun user_data => ?_
  exact Fits.pure (by decide) (by weigh [Etsi.DmrData.Rate34Confirmed.toPy])

open Dmr.Etsi in
theorem Etsi.DmrData.Rate34LastBlockConfirmed.read_fits :
    Fits 0 0 (Etsi.DmrData.Rate34LastBlockConfirmed.read) (fun x => 8 * PyVal.amount (Etsi.DmrData.Rate34LastBlockConfirmed.toPy x)) 0 := by
  unfold Etsi.DmrData.Rate34LastBlockConfirmed.read
  refine Fits.bind 7 (Fits.bits 7 (by decide)) fun data_block_serial_number => ?_
  refine Fits.bind 0 (Fits.bits 9 (by decide)) fun crc9 => ?_
  refine Fits.align ?_
  refine Fits.bind 0 (Fits.bytes _) fun user_data => ?_
  refine Fits.bind 0 (Fits.bytes _) fun message_crc32 => ?_
  exact Fits.pure (by decide) (by weigh [Etsi.DmrData.Rate34LastBlockConfirmed.toPy])

open Dmr.Etsi in
theorem Etsi.DmrData.Rate34Unconfirmed.read_fits :
    Fits 0 0 (Etsi.DmrData.Rate34Unconfirmed.read) (fun x => 8 * PyVal.amount (Etsi.DmrData.Rate34Unconfirmed.toPy x)) 0 := by
  unfold Etsi.DmrData.Rate34Unconfirmed.read
  refine Fits.bind 0 (Fits.bytes _) fun user_data => ?_
  exact Fits.pure (by decide) (by weigh [Etsi.DmrData.Rate34Unconfirmed.toPy])

open Dmr.Etsi in
theorem Etsi.DmrData.Rate12LastBlockUnconfirmed.read_fits :
    Fits 0 0 (Etsi.DmrData.Rate12LastBlockUnconfirmed.read) (fun x => 8 * PyVal.amount (Etsi.DmrData.Rate12LastBlockUnconfirmed.toPy x)) 0 := by
  unfold Etsi.DmrData.Rate12LastBlockUnconfirmed.read
  refine Fits.bind 0 (Fits.bytes _) fun user_data => ?_
  refine Fits.bind 0 (Fits.bytes _) fun message_crc32 => ?_
  exact Fits.pure (by decide) (by weigh [Etsi.DmrData.Rate12LastBlockUnconfirmed.toPy])

open Dmr.Etsi in
theorem Etsi.DmrData.Rate1Confirmed.read_fits :
    Fits 0 0 (Etsi.DmrData.Rate1Confirmed.read) (fun x => 8 * PyVal.amount (Etsi.DmrData.Rate1Confirmed.toPy x)) 0 := by
  unfold Etsi.DmrData.Rate1Confirmed.read
  refine Fits.bind 7 (Fits.bits 7 (by decide)) fun data_block_serial_number => ?_
  refine Fits.bind 0 (Fits.bits 9 (by decide)) fun crc9 => ?_
  refine Fits.align ?_
  refine Fits.bind 0 (Fits.bytes _) fun user_data => ?_
  exact Fits.pure (by decide) (by weigh [Etsi.DmrData.Rate1Confirmed.toPy])

open Dmr.Etsi in
theorem Etsi.DmrData.Rate12Unconfirmed.read_fits :
    Fits 0 0 (Etsi.DmrData.Rate12Unconfirmed.read) (fun x => 8 * PyVal.amount (Etsi.DmrData.Rate12Unconfirmed.toPy x)) 0 := by
  unfold Etsi.DmrData.Rate12Unconfirmed.read
  refine Fits.bind 0 (Fits.bytes _) fun user_data => ?_
  exact Fits.pure (by decide) (by weigh [Etsi.DmrData.Rate12Unconfirmed.toPy])

open Dmr.Etsi in
theorem Etsi.DmrData.read_fits :
    Fits 0 0 (Etsi.DmrData.read) (fun x => 8 * PyVal.amount (Etsi.DmrData.toPy x)) 0 := by
  unfold Etsi.DmrData.read
  exact Fits.pure (by decide) (by weigh [Etsi.DmrData.toPy])

open Dmr.Etsi in
theorem Etsi.DmrDataHeader.DataHeaderShortRaw.read_fits :
    Fits 0 0 (Etsi.DmrDataHeader.DataHeaderShortRaw.read) (fun x => 8 * PyVal.amount (Etsi.DmrDataHeader.DataHeaderShortRaw.toPy x)) 0 := by
  unfold Etsi.DmrDataHeader.DataHeaderShortRaw.read
  refine Fits.bind 1 (Fits.flag (by decide)) fun llid_destination_is_group => ?_
  refine Fits.bind 2 (Fits.flag (by decide)) fun response_requested => ?_
  refine Fits.bind 4 (Fits.bits 2 (by decide)) fun appended_blocks_msb => ?_
  refine Fits.bind 0 (Fits.asEnum (Fits.bits 4 (by decide))) fun format => ?_
  refine Fits.bind 4 (Fits.asEnum (Fits.bits 4 (by decide))) fun sap_identifier => ?_
  refine Fits.bind 0 (Fits.bits 4 (by decide)) fun appended_blocks_lsb => ?_
  refine Fits.bind 0 (Fits.bits 24 (by decide)) fun llid_destination => ?_
  refine Fits.bind 0 (Fits.bits 24 (by decide)) fun llid_source => ?_
  refine Fits.bind 3 (Fits.bits 3 (by decide)) fun source_port => ?_
  refine Fits.bind 6 (Fits.bits 3 (by decide)) fun destination_port => ?_
  refine Fits.bind 7 (Fits.flag (by decide)) fun selective_automatic_repeat_request => ?_
  refine Fits.bind 0 (Fits.flag (by decide)) fun full_message_flag => ?_
  refine Fits.bind 0 (Fits.bits 8 (by decide)) fun bit_padding => ?_
  refine Fits.align ?_
  refine Fits.bind 0 (Fits.bytes _) fun crc => ?_
  exact Fits.pure (by decide) (by weigh [Etsi.DmrDataHeader.DataHeaderShortRaw.toPy])

open Dmr.Etsi in
theorem Etsi.DmrDataHeader.DataHeaderProprietary.read_fits :
    Fits 0 0 (Etsi.DmrDataHeader.DataHeaderProprietary.read) (fun x => 8 * PyVal.amount (Etsi.DmrDataHeader.DataHeaderProprietary.toPy x)) 0 := by
  unfold Etsi.DmrDataHeader.DataHeaderProprietary.read
  refine Fits.bind 4 (Fits.asEnum (Fits.bits 4 (by decide))) fun sap_identifier => ?_
  refine Fits.bind 0 (Fits.asEnum (Fits.bits 4 (by decide))) fun format => ?_
  refine Fits.bind 0 (Fits.bits 8 (by decide)) fun mfid => ?_
  refine Fits.align ?_
  refine Fits.bind 0 (Fits.bytes _) fun proprietary_data => ?_
  refine Fits.bind 0 (Fits.bytes _) fun crc => ?_
  exact Fits.pure (by decide) (by weigh [Etsi.DmrDataHeader.DataHeaderProprietary.toPy])

open Dmr.Etsi in
theorem Etsi.DmrDataHeader.DataHeaderUndefined.read_fits :
    Fits 0 0 (Etsi.DmrDataHeader.DataHeaderUndefined.read) (fun x => 8 * PyVal.amount (Etsi.DmrDataHeader.DataHeaderUndefined.toPy x)) 0 := by
  unfold Etsi.DmrDataHeader.DataHeaderUndefined.read
  refine Fits.bind 0 Fits.full fun bytedata => ?_
  exact Fits.pure (by decide) (by weigh [Etsi.DmrDataHeader.DataHeaderUndefined.toPy])

open Dmr.Etsi in
theorem Etsi.DmrDataHeader.DataHeaderShortStatusPrecoded.read_fits :
    Fits 0 0 (Etsi.DmrDataHeader.DataHeaderShortStatusPrecoded.read) (fun x => 8 * PyVal.amount (Etsi.DmrDataHeader.DataHeaderShortStatusPrecoded.toPy x)) 0 := by
  unfold Etsi.DmrDataHeader.DataHeaderShortStatusPrecoded.read
  refine Fits.bind 1 (Fits.flag (by decide)) fun llid_destination_is_group => ?_
  refine Fits.bind 2 (Fits.flag (by decide)) fun response_requested => ?_
  refine Fits.bind 4 (Fits.bits 2 (by decide)) fun appended_blocks_msb => ?_
  refine Fits.bind 0 (Fits.asEnum (Fits.bits 4 (by decide))) fun format => ?_
  refine Fits.bind 4 (Fits.asEnum (Fits.bits 4 (by decide))) fun sap_identifier => ?_
  refine Fits.bind 0 (Fits.bits 4 (by decide)) fun appended_blocks_lsb => ?_
  refine Fits.bind 0 (Fits.bits 24 (by decide)) fun llid_destination => ?_
  refine Fits.bind 0 (Fits.bits 24 (by decide)) fun llid_source => ?_
  refine Fits.bind 3 (Fits.bits 3 (by decide)) fun source_port => ?_
  refine Fits.bind 6 (Fits.bits 3 (by decide)) fun destination_port => ?_
  refine Fits.bind 0 (Fits.bits 10 (by decide)) fun status_precoded => ?_
  refine Fits.align ?_
  refine Fits.bind 0 (Fits.bytes _) fun crc => ?_
  exact Fits.pure (by decide) (by weigh [Etsi.DmrDataHeader.DataHeaderShortStatusPrecoded.toPy])

open Dmr.Etsi in
theorem Etsi.DmrDataHeader.DataHeaderResponse.read_fits :
    Fits 0 0 (Etsi.DmrDataHeader.DataHeaderResponse.read) (fun x => 8 * PyVal.amount (Etsi.DmrDataHeader.DataHeaderResponse.toPy x)) 0 := by
  unfold Etsi.DmrDataHeader.DataHeaderResponse.read
  refine Fits.bind 1 (Fits.flag (by decide)) fun reserved1 => ?_
  refine Fits.bind 2 (Fits.flag (by decide)) fun response_requested => ?_
  refine Fits.bind 4 (Fits.bits 2 (by decide)) fun reserved2 => ?_
  refine Fits.bind 0 (Fits.asEnum (Fits.bits 4 (by decide))) fun format => ?_
  refine Fits.bind 4 (Fits.asEnum (Fits.bits 4 (by decide))) fun sap_identifier => ?_
  refine Fits.bind 0 (Fits.bits 4 (by decide)) fun reserved3 => ?_
  refine Fits.bind 0 (Fits.bits 24 (by decide)) fun llid_destination => ?_
  refine Fits.bind 0 (Fits.bits 24 (by decide)) fun llid_source => ?_
  refine Fits.bind 1 (Fits.flag (by decide)) fun full_message_flag => ?_
  refine Fits.bind 0 (Fits.bits 7 (by decide)) fun blocks_to_follow => ?_
  refine Fits.bind 2 (Fits.asEnum (Fits.bits 2 (by decide))) fun response_class => ?_
  refine Fits.bind 5 (Fits.bits 3 (by decide)) fun response_type => ?_
  refine Fits.bind 0 (Fits.bits 3 (by decide)) fun response_status => ?_
  refine Fits.align ?_
  refine Fits.bind 0 (Fits.bytes _) fun crc => ?_
  exact Fits.pure (by decide) (by weigh [Etsi.DmrDataHeader.DataHeaderResponse.toPy])

open Dmr.Etsi in
theorem Etsi.DmrDataHeader.DataHeaderConfirmed.read_fits :
    Fits 0 0 (Etsi.DmrDataHeader.DataHeaderConfirmed.read) (fun x => 8 * PyVal.amount (Etsi.DmrDataHeader.DataHeaderConfirmed.toPy x)) 0 := by
  unfold Etsi.DmrDataHeader.DataHeaderConfirmed.read
  refine Fits.bind 1 (Fits.flag (by decide)) fun llid_destination_is_group => ?_
  refine Fits.bind 2 (Fits.flag (by decide)) fun response_requested => ?_
  refine Fits.bind 3 (Fits.flag (by decide)) fun reserved1 => ?_
  refine Fits.bind 4 (Fits.flag (by decide)) fun pad_octet_count_msb => ?_
  refine Fits.bind 0 (Fits.asEnum (Fits.bits 4 (by decide))) fun format => ?_
  refine Fits.bind 4 (Fits.asEnum (Fits.bits 4 (by decide))) fun sap_identifier => ?_
  refine Fits.bind 0 (Fits.bits 4 (by decide)) fun pad_octet_count => ?_
  refine Fits.bind 0 (Fits.bits 24 (by decide)) fun llid_destination => ?_
  refine Fits.bind 0 (Fits.bits 24 (by decide)) fun llid_source => ?_
  refine Fits.bind 1 (Fits.flag (by decide)) fun full_message_flag => ?_
  refine Fits.bind 0 (Fits.bits 7 (by decide)) fun blocks_to_follow => ?_
  refine Fits.bind 1 (Fits.flag (by decide)) fun resynchronize_flag => ?_
  refine Fits.bind 4 (Fits.bits 3 (by decide)) fun send_sequence_number => ?_
  refine Fits.bind 0 (Fits.bits 4 (by decide)) fun fragment_sequence_number => ?_
  refine Fits.align ?_
  refine Fits.bind 0 (Fits.bytes _) fun crc => ?_
  exact Fits.pure (by decide) (by weigh [Etsi.DmrDataHeader.DataHeaderConfirmed.toPy])

open Dmr.Etsi in
theorem Etsi.DmrDataHeader.DataHeaderUnconfirmed.read_fits :
    Fits 0 0 (Etsi.DmrDataHeader.DataHeaderUnconfirmed.read) (fun x => 8 * PyVal.amount (Etsi.DmrDataHeader.DataHeaderUnconfirmed.toPy x)) 0 := by
  unfold Etsi.DmrDataHeader.DataHeaderUnconfirmed.read
  refine Fits.bind 1 (Fits.flag (by decide)) fun llid_destination_is_group => ?_
  refine Fits.bind 2 (Fits.flag (by decide)) fun response_requested => ?_
  refine Fits.bind 3 (Fits.flag (by decide)) fun reserved1 => ?_
  refine Fits.bind 4 (Fits.flag (by decide)) fun pad_octet_count_msb => ?_
  refine Fits.bind 0 (Fits.asEnum (Fits.bits 4 (by decide))) fun format => ?_
  refine Fits.bind 4 (Fits.asEnum (Fits.bits 4 (by decide))) fun sap_identifier => ?_
  refine Fits.bind 0 (Fits.bits 4 (by decide)) fun pad_octet_count => ?_
  refine Fits.bind 0 (Fits.bits 24 (by decide)) fun llid_destination => ?_
  refine Fits.bind 0 (Fits.bits 24 (by decide)) fun llid_source => ?_
  refine Fits.bind 1 (Fits.flag (by decide)) fun full_message_flag => ?_
  refine Fits.bind 0 (Fits.bits 7 (by decide)) fun blocks_to_follow => ?_
  refine Fits.bind 4 (Fits.bits 4 (by decide)) fun reserved2 => ?_
  refine Fits.bind 0 (Fits.bits 4 (by decide)) fun fragment_sequence_number => ?_
  refine Fits.align ?_
  refine Fits.bind 0 (Fits.bytes _) fun crc => ?_
  exact Fits.pure (by decide) (by weigh [Etsi.DmrDataHeader.DataHeaderUnconfirmed.toPy])

open Dmr.Etsi in
theorem Etsi.DmrDataHeader.DataHeaderShortDefined.read_fits :
    Fits 0 0 (Etsi.DmrDataHeader.DataHeaderShortDefined.read) (fun x => 8 * PyVal.amount (Etsi.DmrDataHeader.DataHeaderShortDefined.toPy x)) 0 := by
  unfold Etsi.DmrDataHeader.DataHeaderShortDefined.read
  refine Fits.bind 1 (Fits.flag (by decide)) fun llid_destination_is_group => ?_
  refine Fits.bind 2 (Fits.flag (by decide)) fun response_requested => ?_
  refine Fits.bind 4 (Fits.bits 2 (by decide)) fun appended_blocks_msb => ?_
  refine Fits.bind 0 (Fits.asEnum (Fits.bits 4 (by decide))) fun format => ?_
  refine Fits.bind 4 (Fits.asEnum (Fits.bits 4 (by decide))) fun sap_identifier => ?_
  refine Fits.bind 0 (Fits.bits 4 (by decide)) fun appended_blocks_lsb => ?_
  refine Fits.bind 0 (Fits.bits 24 (by decide)) fun llid_destination => ?_
  refine Fits.bind 0 (Fits.bits 24 (by decide)) fun llid_source => ?_
  refine Fits.bind 6 (Fits.asEnum (Fits.bits 6 (by decide))) fun defined_data => ?_
  refine Fits.bind 7 (Fits.flag (by decide)) fun selective_automatic_repeat_request => ?_
  refine Fits.bind 0 (Fits.flag (by decide)) fun full_message_flag => ?_
  refine Fits.bind 0 (Fits.bits 8 (by decide)) fun bit_padding => ?_
  refine Fits.align ?_
  refine Fits.bind 0 (Fits.bytes _) fun crc => ?_
  exact Fits.pure (by decide) (by weigh [Etsi.DmrDataHeader.DataHeaderShortDefined.toPy])

open Dmr.Etsi in
theorem Etsi.DmrDataHeader.DataHeaderUdt.read_fits :
    Fits 0 0 (Etsi.DmrDataHeader.DataHeaderUdt.read) (fun x => 8 * PyVal.amount (Etsi.DmrDataHeader.DataHeaderUdt.toPy x)) 0 := by
  unfold Etsi.DmrDataHeader.DataHeaderUdt.read
  refine Fits.bind 1 (Fits.flag (by decide)) fun llid_destination_is_group => ?_
  refine Fits.bind 2 (Fits.flag (by decide)) fun response_requested => ?_
  refine Fits.bind 4 (Fits.bits 2 (by decide)) fun reserved1 => ?_
  refine Fits.bind 0 (Fits.asEnum (Fits.bits 4 (by decide))) fun format => ?_
  refine Fits.bind 4 (Fits.asEnum (Fits.bits 4 (by decide))) fun sap_identifier => ?_
  refine Fits.bind 0 (Fits.asEnum (Fits.bits 4 (by decide))) fun udt_format => ?_
  refine Fits.bind 0 (Fits.bits 24 (by decide)) fun llid_destination => ?_
  refine Fits.bind 0 (Fits.bits 24 (by decide)) fun llid_source => ?_
  refine Fits.bind 5 (Fits.bits 5 (by decide)) fun pad_nibble => ?_
  refine Fits.bind 6 (Fits.flag (by decide)) fun reserved2 => ?_
  refine Fits.bind 0 (Fits.bits 2 (by decide)) fun appended_blocks => ?_
  refine Fits.bind 1 (Fits.flag (by decide)) fun supplementary_flag => ?_
  refine Fits.bind 2 (Fits.flag (by decide)) fun protect_flag => ?_
  refine Fits.bind 0 (Fits.asEnum (Fits.bits 6 (by decide))) fun udt_opcode => ?_
  refine Fits.align ?_
  refine Fits.bind 0 (Fits.bytes _) fun crc => ?_
  exact Fits.pure (by decide) (by weigh [Etsi.DmrDataHeader.DataHeaderUdt.toPy])

open Dmr.Etsi in
theorem Etsi.DmrDataHeader.read_fits :
    Fits 0 0 (Etsi.DmrDataHeader.read) (fun x => 8 * PyVal.amount (Etsi.DmrDataHeader.toPy x)) 0 := by
  unfold Etsi.DmrDataHeader.read
  refine Fits.bind 4 (Fits.bits 4 (by decide)) fun skip4 => ?_
  refine Fits.bind 0 (Fits.asEnum (Fits.bits 4 (by decide))) fun data_packet_format => ?_
  exact Fits.pure (by decide) (by weigh [Etsi.DmrDataHeader.toPy])

open Dmr.Etsi in
theorem Etsi.DmrDataHeader.readDataBody_fits (on : EnumVal DmrDataHeader.DataPacketFormats) :
    Fits 0 0 (Etsi.DmrDataHeader.readDataBody on) (fun x => 8 * PyVal.amount (Etsi.DmrDataHeader.DataUnion.toPy x)) 0 := by
  unfold Etsi.DmrDataHeader.readDataBody
  refine Fits.ite (fun _ => Fits.map (Etsi.DmrDataHeader.DataHeaderProprietary.read_fits) fun _ => by weigh [Etsi.DmrDataHeader.DataUnion.toPy]) fun _ => ?_
  refine Fits.ite (fun _ => Fits.map (Etsi.DmrDataHeader.DataHeaderShortDefined.read_fits) fun _ => by weigh [Etsi.DmrDataHeader.DataUnion.toPy]) fun _ => ?_
  refine Fits.ite (fun _ => Fits.map (Etsi.DmrDataHeader.DataHeaderUnconfirmed.read_fits) fun _ => by weigh [Etsi.DmrDataHeader.DataUnion.toPy]) fun _ => ?_
  refine Fits.ite (fun _ => Fits.map (Etsi.DmrDataHeader.DataHeaderConfirmed.read_fits) fun _ => by weigh [Etsi.DmrDataHeader.DataUnion.toPy]) fun _ => ?_
  refine Fits.ite (fun _ => Fits.map (Etsi.DmrDataHeader.DataHeaderUdt.read_fits) fun _ => by weigh [Etsi.DmrDataHeader.DataUnion.toPy]) fun _ => ?_
  refine Fits.ite (fun _ => Fits.map (Etsi.DmrDataHeader.DataHeaderShortStatusPrecoded.read_fits) fun _ => by weigh [Etsi.DmrDataHeader.DataUnion.toPy]) fun _ => ?_
  refine Fits.ite (fun _ => Fits.map (Etsi.DmrDataHeader.DataHeaderResponse.read_fits) fun _ => by weigh [Etsi.DmrDataHeader.DataUnion.toPy]) fun _ => ?_
  exact Fits.map (Etsi.DmrDataHeader.DataHeaderUndefined.read_fits) fun _ => by weigh [Etsi.DmrDataHeader.DataUnion.toPy]

open Dmr.Etsi in
theorem Etsi.DmrIpUdp.UdpIpv4CompressedHeader.read_fits :
    Fits 0 0 (Etsi.DmrIpUdp.UdpIpv4CompressedHeader.read) (fun x => 8 * PyVal.amount (Etsi.DmrIpUdp.UdpIpv4CompressedHeader.toPy x)) 0 := by
  unfold Etsi.DmrIpUdp.UdpIpv4CompressedHeader.read
  refine Fits.bind 0 (Fits.bytes _) fun ipv4_identification => ?_
  refine Fits.bind 4 (Fits.asEnum (Fits.bits 4 (by decide))) fun source_ip_address_id => ?_
  refine Fits.bind 0 (Fits.asEnum (Fits.bits 4 (by decide))) fun destination_ip_address_id => ?_
  refine Fits.bind 1 (Fits.flag (by decide)) fun header_compression_opcode_msb => ?_
  refine Fits.bind 0 (Fits.asEnum (Fits.bits 7 (by decide))) fun udp_source_port_id => ?_
  refine Fits.bind 1 (Fits.flag (by decide)) fun header_compression_opcode_lsb => ?_
  refine Fits.bind 0 (Fits.asEnum (Fits.bits 7 (by decide))) fun udp_destination_port_id => ?_
  refine Fits.align ?_
  refine Fits.bind 0 (Fits.optionally fun _ => (Fits.bytes _)) fun udp_source_port => ?_
  refine Fits.bind 0 (Fits.optionally fun _ => (Fits.bytes _)) fun udp_destination_port => ?_
  refine Fits.bind 0 Fits.full fun user_data => ?_
  exact Fits.pure (by decide) (by weigh [Etsi.DmrIpUdp.UdpIpv4CompressedHeader.toPy])

open Dmr.Etsi in
theorem Etsi.DmrIpUdp.read_fits :
    Fits 0 0 (Etsi.DmrIpUdp.read) (fun x => 8 * PyVal.amount (Etsi.DmrIpUdp.toPy x)) 0 := by
  unfold Etsi.DmrIpUdp.read
  exact Fits.pure (by decide) (by weigh [Etsi.DmrIpUdp.toPy])

open Dmr.Etsi in
theorem Etsi.FullLinkControl.GpsInfoLcPdu.read_fits :
    Fits 0 0 (Etsi.FullLinkControl.GpsInfoLcPdu.read) (fun x => 8 * PyVal.amount (Etsi.FullLinkControl.GpsInfoLcPdu.toPy x)) 0 := by
  unfold Etsi.FullLinkControl.GpsInfoLcPdu.read
  refine Fits.bind 4 (Fits.bits 4 (by decide)) fun reserved => ?_
  refine Fits.bind 7 (Fits.asEnum (Fits.bits 3 (by decide))) fun position_error => ?_
  refine Fits.bind 0 (Fits.bits 25 (by decide)) fun longitude => ?_
  refine Fits.bind 0 (Fits.bits 24 (by decide)) fun latitude => ?_
  exact Fits.pure (by decide) (by weigh [Etsi.FullLinkControl.GpsInfoLcPdu.toPy])

open Dmr.Etsi in
theorem Etsi.FullLinkControl.GroupVoiceChannelUser.read_fits :
    Fits 0 0 (Etsi.FullLinkControl.GroupVoiceChannelUser.read) (fun x => 8 * PyVal.amount (Etsi.FullLinkControl.GroupVoiceChannelUser.toPy x)) 0 := by
  unfold Etsi.FullLinkControl.GroupVoiceChannelUser.read
  refine Fits.bind 0 (Fits.bits 8 (by decide)) fun service_options => ?_
  refine Fits.bind 0 (Fits.bits 24 (by decide)) fun group_address => ?_
  refine Fits.bind 0 (Fits.bits 24 (by decide)) fun source_address => ?_
  exact Fits.pure (by decide) (by weigh [Etsi.FullLinkControl.GroupVoiceChannelUser.toPy])

open Dmr.Etsi in
theorem Etsi.FullLinkControl.UnitToUnitVoiceChannelUser.read_fits :
    Fits 0 0 (Etsi.FullLinkControl.UnitToUnitVoiceChannelUser.read) (fun x => 8 * PyVal.amount (Etsi.FullLinkControl.UnitToUnitVoiceChannelUser.toPy x)) 0 := by
  unfold Etsi.FullLinkControl.UnitToUnitVoiceChannelUser.read
  refine Fits.bind 0 (Fits.bits 8 (by decide)) fun service_options => ?_
  refine Fits.bind 0 (Fits.bits 24 (by decide)) fun target_address => ?_
  refine Fits.bind 0 (Fits.bits 24 (by decide)) fun source_address => ?_
  exact Fits.pure (by decide) (by weigh [Etsi.FullLinkControl.UnitToUnitVoiceChannelUser.toPy])

open Dmr.Etsi in
theorem Etsi.FullLinkControl.TalkerAliasHeader.read_fits :
    Fits 0 0 (Etsi.FullLinkControl.TalkerAliasHeader.read) (fun x => 8 * PyVal.amount (Etsi.FullLinkControl.TalkerAliasHeader.toPy x)) 0 := by
  unfold Etsi.FullLinkControl.TalkerAliasHeader.read
  refine Fits.bind 2 (Fits.asEnum (Fits.bits 2 (by decide))) fun talker_alias_data_format => ?_
  refine Fits.bind 7 (Fits.bits 5 (by decide)) fun talker_alias_data_length => ?_
  refine Fits.bind 0 (Fits.bits 49 (by decide)) fun talker_alias_data => ?_
  exact Fits.pure (by decide) (by weigh [Etsi.FullLinkControl.TalkerAliasHeader.toPy])

open Dmr.Etsi in
theorem Etsi.FullLinkControl.TalkerAliasContinuation.read_fits :
    Fits 0 0 (Etsi.FullLinkControl.TalkerAliasContinuation.read) (fun x => 8 * PyVal.amount (Etsi.FullLinkControl.TalkerAliasContinuation.toPy x)) 0 := by
  unfold Etsi.FullLinkControl.TalkerAliasContinuation.read
  refine Fits.bind 0 (Fits.bits 56 (by decide)) fun talker_alias_data => ?_
  exact Fits.pure (by decide) (by weigh [Etsi.FullLinkControl.TalkerAliasContinuation.toPy])

open Dmr.Etsi in
theorem Etsi.FullLinkControl.readSpecificData_fits (on : EnumVal FullLinkControl.Flcos) :
    Fits 0 0 (Etsi.FullLinkControl.readSpecificData on) (fun x => optW (fun y => 8 * PyVal.amount (Etsi.FullLinkControl.SpecificDataUnion.toPy y)) x) 0 := by
  unfold Etsi.FullLinkControl.readSpecificData
  refine Fits.ite (fun _ => Fits.map (Etsi.FullLinkControl.TalkerAliasHeader.read_fits) fun _ => by weigh [Etsi.FullLinkControl.SpecificDataUnion.toPy]) fun _ => ?_
  refine Fits.ite (fun _ => Fits.map (Etsi.FullLinkControl.UnitToUnitVoiceChannelUser.read_fits) fun _ => by weigh [Etsi.FullLinkControl.SpecificDataUnion.toPy]) fun _ => ?_
  refine Fits.ite (fun _ => Fits.map (Etsi.FullLinkControl.GroupVoiceChannelUser.read_fits) fun _ => by weigh [Etsi.FullLinkControl.SpecificDataUnion.toPy]) fun _ => ?_
  refine Fits.ite (fun _ => Fits.map (Etsi.FullLinkControl.TalkerAliasContinuation.read_fits) fun _ => by weigh [Etsi.FullLinkControl.SpecificDataUnion.toPy]) fun _ => ?_
  refine Fits.ite (fun _ => Fits.map (Etsi.FullLinkControl.TalkerAliasContinuation.read_fits) fun _ => by weigh [Etsi.FullLinkControl.SpecificDataUnion.toPy]) fun _ => ?_
  refine Fits.ite (fun _ => Fits.map (Etsi.FullLinkControl.TalkerAliasContinuation.read_fits) fun _ => by weigh [Etsi.FullLinkControl.SpecificDataUnion.toPy]) fun _ => ?_
  refine Fits.ite (fun _ => Fits.map (Etsi.FullLinkControl.GpsInfoLcPdu.read_fits) fun _ => by weigh [Etsi.FullLinkControl.SpecificDataUnion.toPy]) fun _ => ?_
  exact Fits.pure (by decide) (Nat.zero_le _)

open Dmr.Etsi in
theorem Etsi.FullLinkControl.read_fits :
    Fits 0 0 (Etsi.FullLinkControl.read) (fun x => 8 * PyVal.amount (Etsi.FullLinkControl.toPy x)) 8 := by
  unfold Etsi.FullLinkControl.read
  refine Fits.bind 1 (Fits.flag (by decide)) fun protect_flag => ?_
  refine Fits.bind 2 (Fits.flag (by decide)) fun reserved => ?_
  refine Fits.bind 0 (Fits.asEnum (Fits.bits 6 (by decide))) fun full_link_control_opcode => ?_
  refine Fits.bind 0 (Fits.asEnum (Fits.bits 8 (by decide))) fun feature_set_id => ?_
  refine Fits.align ?_
  refine Fits.bind 0 (Etsi.FullLinkControl.readSpecificData_fits _) fun specific_data => ?_
  refine Fits.peek Silent.size fun io_size1 => ?_
  refine Fits.peek Silent.pos fun io_pos2 => ?_
  refine Fits.bind 0 (Fits.optionally fun _ => (Fits.bytes _)) fun crc_checksum => ?_
  refine Fits.peek Silent.size fun io_size3 => ?_
  refine Fits.bind 8 (Fits.optAny fun _ => (Fits.bits 5 (by decide))) fun cs5_checksum => ?_
  exact Fits.pure (.inr (by decide)) (by weigh [Etsi.FullLinkControl.toPy])

open Dmr.Homebrew in
theorem Homebrew.Homebrew2015.TypeMasterPing.read_fits :
    Fits 0 0 (Homebrew.Homebrew2015.TypeMasterPing.read) (fun x => 8 * PyVal.amount (Homebrew.Homebrew2015.TypeMasterPing.toPy x)) 0 := by
  unfold Homebrew.Homebrew2015.TypeMasterPing.read
  refine Fits.bind 0 (Fits.bytes _) fun magic => ?_
  refine Fits.validate ?_
  refine Fits.bind 0 Fits.u4be fun repeater_id => ?_
  exact Fits.pure (by decide) (by weigh [Homebrew.Homebrew2015.TypeMasterPing.toPy])

open Dmr.Homebrew in
theorem Homebrew.Homebrew2015.TypeRepeaterPong.read_fits :
    Fits 0 0 (Homebrew.Homebrew2015.TypeRepeaterPong.read) (fun x => 8 * PyVal.amount (Homebrew.Homebrew2015.TypeRepeaterPong.toPy x)) 0 := by
  unfold Homebrew.Homebrew2015.TypeRepeaterPong.read
  refine Fits.bind 0 (Fits.bytes _) fun magic => ?_
  refine Fits.validate ?_
  refine Fits.bind 0 Fits.u4be fun repeater_id => ?_
  exact Fits.pure (by decide) (by weigh [Homebrew.Homebrew2015.TypeRepeaterPong.toPy])

open Dmr.Homebrew in
theorem Homebrew.Homebrew2015.TypeRepeaterClosing.read_fits :
    Fits 0 0 (Homebrew.Homebrew2015.TypeRepeaterClosing.read) (fun x => 8 + 8 * PyVal.amount (Homebrew.Homebrew2015.TypeRepeaterClosing.toPy x)) 0 := by
  unfold Homebrew.Homebrew2015.TypeRepeaterClosing.read
  refine Fits.bind 0 (Fits.bytes _) fun magic => ?_
  refine Fits.validate ?_
  refine Fits.bind 0 Fits.u4be fun repeater_id => ?_
  exact Fits.pure (by decide) (by weigh [Homebrew.Homebrew2015.TypeRepeaterClosing.toPy])

open Dmr.Homebrew in
theorem Homebrew.Homebrew2015.TypeRepeaterConfiguration.read_fits :
    Fits 0 0 (Homebrew.Homebrew2015.TypeRepeaterConfiguration.read) (fun x => 8 + 8 * PyVal.amount (Homebrew.Homebrew2015.TypeRepeaterConfiguration.toPy x)) 0 := by
  unfold Homebrew.Homebrew2015.TypeRepeaterConfiguration.read
  refine Fits.bind 0 Fits.u4be fun repeater_id => ?_
  refine Fits.bind 0 (Fits.decodeWith (Fits.bytes _) decodeAscii_short) fun call_sign => ?_
  refine Fits.bind 0 (Fits.decodeWith (Fits.bytes _) decodeAscii_short) fun rx_freq => ?_
  refine Fits.bind 0 (Fits.decodeWith (Fits.bytes _) decodeAscii_short) fun tx_freq => ?_
  refine Fits.bind 0 (Fits.decodeWith (Fits.bytes _) decodeAscii_short) fun tx_power => ?_
  refine Fits.bind 0 (Fits.decodeWith (Fits.bytes _) decodeAscii_short) fun color_code => ?_
  refine Fits.bind 0 (Fits.decodeWith (Fits.bytes _) decodeAscii_short) fun latitude => ?_
  refine Fits.bind 0 (Fits.decodeWith (Fits.bytes _) decodeAscii_short) fun longitude => ?_
  refine Fits.bind 0 (Fits.decodeWith (Fits.bytes _) decodeAscii_short) fun antenna_height_above_ground => ?_
  refine Fits.bind 0 (Fits.decodeWith (Fits.bytes _) decodeAscii_short) fun location => ?_
  refine Fits.bind 0 (Fits.decodeWith (Fits.bytes _) decodeAscii_short) fun description => ?_
  refine Fits.bind 0 (Fits.decodeWith (Fits.bytes _) decodeAscii_short) fun url => ?_
  refine Fits.bind 0 (Fits.decodeWith (Fits.bytes _) decodeAscii_short) fun software_id => ?_
  refine Fits.bind 0 (Fits.decodeWith (Fits.bytes _) decodeAscii_short) fun package_id => ?_
  refine Fits.bind 0 (Fits.decodeWith Fits.full decodeAscii_short) fun unparsed_data => ?_
  exact Fits.pure (by decide) (by weigh [Homebrew.Homebrew2015.TypeRepeaterConfiguration.toPy])

open Dmr.Homebrew in
theorem Homebrew.Homebrew2015.TypeRepeaterConfigurationOrClosing.readData_fits (on : PyStr) :
    Fits 0 0 (Homebrew.Homebrew2015.TypeRepeaterConfigurationOrClosing.readData on) (fun x => 8 + 8 * PyVal.amount (Homebrew.Homebrew2015.TypeRepeaterConfigurationOrClosing.DataUnion.toPy x)) 0 := by
  unfold Homebrew.Homebrew2015.TypeRepeaterConfigurationOrClosing.readData
  refine Fits.ite (fun _ => Fits.map (Homebrew.Homebrew2015.TypeRepeaterClosing.read_fits) fun _ => by weigh [Homebrew.Homebrew2015.TypeRepeaterConfigurationOrClosing.DataUnion.toPy]) fun _ => ?_
  exact Fits.map (Homebrew.Homebrew2015.TypeRepeaterConfiguration.read_fits) fun _ => by weigh [Homebrew.Homebrew2015.TypeRepeaterConfigurationOrClosing.DataUnion.toPy]

open Dmr.Homebrew in
theorem Homebrew.Homebrew2015.TypeRepeaterConfigurationOrClosing.read_fits :
    Fits 0 0 (Homebrew.Homebrew2015.TypeRepeaterConfigurationOrClosing.read) (fun x => 8 + 8 * PyVal.amount (Homebrew.Homebrew2015.TypeRepeaterConfigurationOrClosing.toPy x)) 0 := by
  unfold Homebrew.Homebrew2015.TypeRepeaterConfigurationOrClosing.read
  refine Fits.peek (Silent.peek 4 (Bytewise.bytes 1).decodeWith : Silent Homebrew2015.computeFifthLetter) fun on => ?_
  refine Fits.bind 0 (ga := fun x => 8 + 8 * PyVal.amount (Homebrew.Homebrew2015.TypeRepeaterConfigurationOrClosing.DataUnion.toPy x)) ?_
    fun _ => Fits.pure (by decide) (by weigh [Homebrew.Homebrew2015.TypeRepeaterConfigurationOrClosing.toPy])
  unfold Homebrew2015.TypeRepeaterConfigurationOrClosing.readData
  repeat' split
  · exact Fits.map Homebrew.Homebrew2015.TypeRepeaterClosing.read_fits fun _ => by weigh [Homebrew.Homebrew2015.TypeRepeaterConfigurationOrClosing.DataUnion.toPy]
  · exact Fits.map Homebrew.Homebrew2015.TypeRepeaterConfiguration.read_fits fun _ => by weigh [Homebrew.Homebrew2015.TypeRepeaterConfigurationOrClosing.DataUnion.toPy]

open Dmr.Homebrew in
theorem Homebrew.Homebrew2015.TypeRepeaterLoginResponse.read_fits :
    Fits 0 0 (Homebrew.Homebrew2015.TypeRepeaterLoginResponse.read) (fun x => 8 * PyVal.amount (Homebrew.Homebrew2015.TypeRepeaterLoginResponse.toPy x)) 0 := by
  unfold Homebrew.Homebrew2015.TypeRepeaterLoginResponse.read
  refine Fits.bind 0 Fits.u4be fun repeater_id => ?_
  refine Fits.bind 0 (Fits.bytes _) fun sha256 => ?_
  exact Fits.pure (by decide) (by weigh [Homebrew.Homebrew2015.TypeRepeaterLoginResponse.toPy])

open Dmr.Homebrew in
theorem Homebrew.Homebrew2015.TypeRepeaterLoginRequest.read_fits :
    Fits 0 0 (Homebrew.Homebrew2015.TypeRepeaterLoginRequest.read) (fun x => 8 * PyVal.amount (Homebrew.Homebrew2015.TypeRepeaterLoginRequest.toPy x)) 0 := by
  unfold Homebrew.Homebrew2015.TypeRepeaterLoginRequest.read
  refine Fits.bind 0 Fits.u4be fun repeater_id => ?_
  exact Fits.pure (by decide) (by weigh [Homebrew.Homebrew2015.TypeRepeaterLoginRequest.toPy])

open Dmr.Homebrew in
theorem Homebrew.Homebrew2015.TypeMasterNotAccept.read_fits :
    Fits 0 0 (Homebrew.Homebrew2015.TypeMasterNotAccept.read) (fun x => 8 * PyVal.amount (Homebrew.Homebrew2015.TypeMasterNotAccept.toPy x)) 0 := by
  unfold Homebrew.Homebrew2015.TypeMasterNotAccept.read
  refine Fits.bind 0 (Fits.bytes _) fun magic => ?_
  refine Fits.validate ?_
  refine Fits.bind 0 Fits.u4be fun repeater_id => ?_
  exact Fits.pure (by decide) (by weigh [Homebrew.Homebrew2015.TypeMasterNotAccept.toPy])

open Dmr.Homebrew in
theorem Homebrew.Homebrew2015.TypeMasterRepeaterAck.read_fits :
    Fits 0 0 (Homebrew.Homebrew2015.TypeMasterRepeaterAck.read) (fun x => 8 * PyVal.amount (Homebrew.Homebrew2015.TypeMasterRepeaterAck.toPy x)) 0 := by
  unfold Homebrew.Homebrew2015.TypeMasterRepeaterAck.read
  refine Fits.bind 0 (Fits.bytes _) fun magictype_master_repeater_ack => ?_
  refine Fits.validate ?_
  refine Fits.bind 0 Fits.u4be fun repeater_id => ?_
  refine Fits.isEof fun eof1 => ?_
  refine Fits.bind 0 (Fits.optionally fun _ => Fits.u4be) fun random_number => ?_
  exact Fits.pure (by decide) (by weigh [Homebrew.Homebrew2015.TypeMasterRepeaterAck.toPy])

open Dmr.Homebrew in
theorem Homebrew.Homebrew2015.TypeMasterClosing.read_fits :
    Fits 0 0 (Homebrew.Homebrew2015.TypeMasterClosing.read) (fun x => 8 * PyVal.amount (Homebrew.Homebrew2015.TypeMasterClosing.toPy x)) 0 := by
  unfold Homebrew.Homebrew2015.TypeMasterClosing.read
  refine Fits.bind 0 (Fits.bytes _) fun magic => ?_
  refine Fits.validate ?_
  refine Fits.bind 0 Fits.u4be fun repeater_id => ?_
  exact Fits.pure (by decide) (by weigh [Homebrew.Homebrew2015.TypeMasterClosing.toPy])

open Dmr.Homebrew in
theorem Homebrew.Homebrew2015.TypeDmrData.read_fits :
    Fits 0 0 (Homebrew.Homebrew2015.TypeDmrData.read) (fun x => 8 * PyVal.amount (Homebrew.Homebrew2015.TypeDmrData.toPy x)) 0 := by
  unfold Homebrew.Homebrew2015.TypeDmrData.read
  refine Fits.bind 0 Fits.u1 fun sequence_no => ?_
  refine Fits.bind 0 (Fits.bits 24 (by decide)) fun source_id => ?_
  refine Fits.bind 0 (Fits.bits 24 (by decide)) fun target_id => ?_
  refine Fits.align ?_
  refine Fits.bind 0 Fits.u4be fun repeater_id => ?_
  refine Fits.bind 1 (Fits.asEnum (Fits.bits 1 (by decide))) fun slot_no => ?_
  refine Fits.bind 2 (Fits.asEnum (Fits.bits 1 (by decide))) fun call_type => ?_
  refine Fits.bind 4 (Fits.asEnum (Fits.bits 2 (by decide))) fun frame_type => ?_
  refine Fits.bind 0 (Fits.bits 4 (by decide)) fun data_type => ?_
  refine Fits.align ?_
  refine Fits.bind 0 Fits.u4be fun stream_id => ?_
  refine Fits.bind 0 (Fits.bytes _) fun dmr_data => ?_
  refine Fits.isEof fun eof1 => ?_
  refine Fits.bind 0 (Fits.optionally fun _ => Fits.u1) fun bit_error_rate => ?_
  refine Fits.isEof fun eof2 => ?_
  refine Fits.bind 0 (Fits.optionally fun _ => Fits.u1) fun rssi => ?_
  exact Fits.pure (by decide) (by weigh [Homebrew.Homebrew2015.TypeDmrData.toPy])

open Dmr.Homebrew in
theorem Homebrew.Homebrew2015.TypeRepeaterOptions.read_fits :
    Fits 0 0 (Homebrew.Homebrew2015.TypeRepeaterOptions.read) (fun x => 8 * PyVal.amount (Homebrew.Homebrew2015.TypeRepeaterOptions.toPy x)) 0 := by
  unfold Homebrew.Homebrew2015.TypeRepeaterOptions.read
  refine Fits.bind 0 Fits.u4be fun repeater_id => ?_
  refine Fits.bind 0 (Fits.decodeWith Fits.full decodeAscii_short) fun options => ?_
  exact Fits.pure (by decide) (by weigh [Homebrew.Homebrew2015.TypeRepeaterOptions.toPy])

open Dmr.Homebrew in
theorem Homebrew.Homebrew2015.readCommandData_fits (on : PyStr) :
    Fits 0 0 (Homebrew.Homebrew2015.readCommandData on) (fun x => optW (fun y => 8 * PyVal.amount (Homebrew.Homebrew2015.CommandDataUnion.toPy y) + 8 * fifthW (Homebrew.Homebrew2015.CommandDataUnion.fifthLetter y)) x) 0 := by
  unfold Homebrew.Homebrew2015.readCommandData
  refine Fits.ite (fun _ => Fits.map (Homebrew.Homebrew2015.TypeRepeaterLoginRequest.read_fits) fun _ => by weigh [Homebrew.Homebrew2015.CommandDataUnion.toPy, fifthW, Homebrew.Homebrew2015.CommandDataUnion.fifthLetter, optW_none]) fun _ => ?_
  refine Fits.ite (fun _ => Fits.map (Homebrew.Homebrew2015.TypeMasterRepeaterAck.read_fits) fun _ => by weigh [Homebrew.Homebrew2015.CommandDataUnion.toPy, fifthW, Homebrew.Homebrew2015.CommandDataUnion.fifthLetter, optW_none]) fun _ => ?_
  refine Fits.ite (fun _ => Fits.map (Homebrew.Homebrew2015.TypeRepeaterLoginResponse.read_fits) fun _ => by weigh [Homebrew.Homebrew2015.CommandDataUnion.toPy, fifthW, Homebrew.Homebrew2015.CommandDataUnion.fifthLetter, optW_none]) fun _ => ?_
  refine Fits.ite (fun _ => Fits.map (Homebrew.Homebrew2015.TypeRepeaterConfigurationOrClosing.read_fits) fun x => by have := Homebrew.Homebrew2015.fifthW_le x; weigh [Homebrew.Homebrew2015.CommandDataUnion.toPy]) fun _ => ?_
  refine Fits.ite (fun _ => Fits.map (Homebrew.Homebrew2015.TypeDmrData.read_fits) fun _ => by weigh [Homebrew.Homebrew2015.CommandDataUnion.toPy, fifthW, Homebrew.Homebrew2015.CommandDataUnion.fifthLetter, optW_none]) fun _ => ?_
  refine Fits.ite (fun _ => Fits.map (Homebrew.Homebrew2015.TypeMasterClosing.read_fits) fun _ => by weigh [Homebrew.Homebrew2015.CommandDataUnion.toPy, fifthW, Homebrew.Homebrew2015.CommandDataUnion.fifthLetter, optW_none]) fun _ => ?_
  refine Fits.ite (fun _ => Fits.map (Homebrew.Homebrew2015.TypeRepeaterPong.read_fits) fun _ => by weigh [Homebrew.Homebrew2015.CommandDataUnion.toPy, fifthW, Homebrew.Homebrew2015.CommandDataUnion.fifthLetter, optW_none]) fun _ => ?_
  refine Fits.ite (fun _ => Fits.map (Homebrew.Homebrew2015.TypeMasterPing.read_fits) fun _ => by weigh [Homebrew.Homebrew2015.CommandDataUnion.toPy, fifthW, Homebrew.Homebrew2015.CommandDataUnion.fifthLetter, optW_none]) fun _ => ?_
  refine Fits.ite (fun _ => Fits.map (Homebrew.Homebrew2015.TypeMasterNotAccept.read_fits) fun _ => by weigh [Homebrew.Homebrew2015.CommandDataUnion.toPy, fifthW, Homebrew.Homebrew2015.CommandDataUnion.fifthLetter, optW_none]) fun _ => ?_
  exact Fits.pure (by decide) (Nat.zero_le _)

open Dmr.Homebrew in
theorem Homebrew.Homebrew2015.read_fits :
    Fits 0 0 (Homebrew.Homebrew2015.read) (fun x => 8 * PyVal.amount (Homebrew.Homebrew2015.toPy x)) 0 := by
  unfold Homebrew.Homebrew2015.read
  refine Fits.bind 0 (Fits.decodeWith (Fits.bytes _) decodeUtf8_short) fun command_prefix => ?_
  refine Fits.bind 0 (Homebrew.Homebrew2015.readCommandData_fits _) fun command_data => ?_
  refine Fits.pure (by decide) ?_
  cases command_data <;> weigh [Homebrew.Homebrew2015.toPy, amount_fifth]

open Dmr.Homebrew in
theorem Homebrew.Mmdvm2020.TypeMasterPong.read_fits :
    Fits 0 0 (Homebrew.Mmdvm2020.TypeMasterPong.read) (fun x => 8 * PyVal.amount (Homebrew.Mmdvm2020.TypeMasterPong.toPy x)) 0 := by
  unfold Homebrew.Mmdvm2020.TypeMasterPong.read
  refine Fits.bind 0 (Fits.bytes _) fun magic => ?_
  refine Fits.validate ?_
  refine Fits.bind 0 Fits.u4be fun repeater_id => ?_
  exact Fits.pure (by decide) (by weigh [Homebrew.Mmdvm2020.TypeMasterPong.toPy])

open Dmr.Homebrew in
theorem Homebrew.Mmdvm2020.TypeRadioPosition.read_fits :
    Fits 0 0 (Homebrew.Mmdvm2020.TypeRadioPosition.read) (fun x => 8 * PyVal.amount (Homebrew.Mmdvm2020.TypeRadioPosition.toPy x)) 0 := by
  unfold Homebrew.Mmdvm2020.TypeRadioPosition.read
  refine Fits.bind 0 (Fits.bits 24 (by decide)) fun radio_id => ?_
  refine Fits.bind 4 (Fits.bits 4 (by decide)) fun reserved => ?_
  refine Fits.bind 7 (Fits.asEnum (Fits.bits 3 (by decide))) fun position_error => ?_
  refine Fits.bind 0 (Fits.bits 25 (by decide)) fun longitude => ?_
  refine Fits.bind 0 (Fits.bits 24 (by decide)) fun latitude => ?_
  exact Fits.pure (by decide) (by weigh [Homebrew.Mmdvm2020.TypeRadioPosition.toPy])

open Dmr.Homebrew in
theorem Homebrew.Mmdvm2020.TypeTalkerAlias.read_fits :
    Fits 0 0 (Homebrew.Mmdvm2020.TypeTalkerAlias.read) (fun x => 8 * PyVal.amount (Homebrew.Mmdvm2020.TypeTalkerAlias.toPy x)) 0 := by
  unfold Homebrew.Mmdvm2020.TypeTalkerAlias.read
  refine Fits.bind 0 (Fits.bits 24 (by decide)) fun radio_id => ?_
  refine Fits.align ?_
  refine Fits.bind 0 (Fits.asEnum Fits.u1) fun talker_alias_type => ?_
  refine Fits.bind 0 (Fits.decodeWith (Fits.bytes _) decodeAscii_short) fun talker_alias => ?_
  exact Fits.pure (by decide) (by weigh [Homebrew.Mmdvm2020.TypeTalkerAlias.toPy])

open Dmr.Homebrew in
theorem Homebrew.Mmdvm2020.TypeRepeaterClosing.read_fits :
    Fits 0 0 (Homebrew.Mmdvm2020.TypeRepeaterClosing.read) (fun x => 8 + 8 * PyVal.amount (Homebrew.Mmdvm2020.TypeRepeaterClosing.toPy x)) 0 := by
  unfold Homebrew.Mmdvm2020.TypeRepeaterClosing.read
  refine Fits.bind 0 (Fits.bytes _) fun magic => ?_
  refine Fits.validate ?_
  refine Fits.bind 0 Fits.u4be fun repeater_id => ?_
  exact Fits.pure (by decide) (by weigh [Homebrew.Mmdvm2020.TypeRepeaterClosing.toPy])

open Dmr.Homebrew in
theorem Homebrew.Mmdvm2020.TypeRepeaterConfiguration.read_fits :
    Fits 0 0 (Homebrew.Mmdvm2020.TypeRepeaterConfiguration.read) (fun x => 8 + 8 * PyVal.amount (Homebrew.Mmdvm2020.TypeRepeaterConfiguration.toPy x)) 0 := by
  unfold Homebrew.Mmdvm2020.TypeRepeaterConfiguration.read
  refine Fits.bind 0 Fits.u4be fun repeater_id => ?_
  refine Fits.bind 0 (Fits.decodeWith (Fits.bytes _) decodeAscii_short) fun call_sign => ?_
  refine Fits.bind 0 (Fits.decodeWith (Fits.bytes _) decodeAscii_short) fun rx_freq => ?_
  refine Fits.bind 0 (Fits.decodeWith (Fits.bytes _) decodeAscii_short) fun tx_freq => ?_
  refine Fits.bind 0 (Fits.decodeWith (Fits.bytes _) decodeAscii_short) fun tx_power => ?_
  refine Fits.bind 0 (Fits.decodeWith (Fits.bytes _) decodeAscii_short) fun color_code => ?_
  refine Fits.bind 0 (Fits.decodeWith (Fits.bytes _) decodeAscii_short) fun latitude => ?_
  refine Fits.bind 0 (Fits.decodeWith (Fits.bytes _) decodeAscii_short) fun longitude => ?_
  refine Fits.bind 0 (Fits.decodeWith (Fits.bytes _) decodeAscii_short) fun antenna_height_above_ground => ?_
  refine Fits.bind 0 (Fits.decodeWith (Fits.bytes _) decodeAscii_short) fun location => ?_
  refine Fits.bind 0 (Fits.decodeWith (Fits.bytes _) decodeAscii_short) fun description => ?_
  refine Fits.bind 0 (Fits.decodeWith (Fits.bytes _) decodeAscii_short) fun slots => ?_
  refine Fits.bind 0 (Fits.decodeWith (Fits.bytes _) decodeAscii_short) fun url => ?_
  refine Fits.bind 0 (Fits.decodeWith (Fits.bytes _) decodeAscii_short) fun software_id => ?_
  refine Fits.bind 0 (Fits.decodeWith (Fits.bytes _) decodeAscii_short) fun package_id => ?_
  refine Fits.bind 0 (Fits.decodeWith Fits.full decodeAscii_short) fun unparsed_data => ?_
  exact Fits.pure (by decide) (by weigh [Homebrew.Mmdvm2020.TypeRepeaterConfiguration.toPy])

open Dmr.Homebrew in
theorem Homebrew.Mmdvm2020.TypeRepeaterConfigurationOrClosing.readData_fits (on : PyStr) :
    Fits 0 0 (Homebrew.Mmdvm2020.TypeRepeaterConfigurationOrClosing.readData on) (fun x => 8 + 8 * PyVal.amount (Homebrew.Mmdvm2020.TypeRepeaterConfigurationOrClosing.DataUnion.toPy x)) 0 := by
  unfold Homebrew.Mmdvm2020.TypeRepeaterConfigurationOrClosing.readData
  refine Fits.ite (fun _ => Fits.map (Homebrew.Mmdvm2020.TypeRepeaterClosing.read_fits) fun _ => by weigh [Homebrew.Mmdvm2020.TypeRepeaterConfigurationOrClosing.DataUnion.toPy]) fun _ => ?_
  exact Fits.map (Homebrew.Mmdvm2020.TypeRepeaterConfiguration.read_fits) fun _ => by weigh [Homebrew.Mmdvm2020.TypeRepeaterConfigurationOrClosing.DataUnion.toPy]

open Dmr.Homebrew in
theorem Homebrew.Mmdvm2020.TypeRepeaterConfigurationOrClosing.read_fits :
    Fits 0 0 (Homebrew.Mmdvm2020.TypeRepeaterConfigurationOrClosing.read) (fun x => 8 + 8 * PyVal.amount (Homebrew.Mmdvm2020.TypeRepeaterConfigurationOrClosing.toPy x)) 0 := by
  unfold Homebrew.Mmdvm2020.TypeRepeaterConfigurationOrClosing.read
  refine Fits.peek (Silent.peek 4 (Bytewise.bytes 1).decodeWith : Silent Mmdvm2020.computeFifthLetter) fun on => ?_
  refine Fits.bind 0 (ga := fun x => 8 + 8 * PyVal.amount (Homebrew.Mmdvm2020.TypeRepeaterConfigurationOrClosing.DataUnion.toPy x)) ?_
    fun _ => Fits.pure (by decide) (by weigh [Homebrew.Mmdvm2020.TypeRepeaterConfigurationOrClosing.toPy])
  unfold Mmdvm2020.TypeRepeaterConfigurationOrClosing.readData
  repeat' split
  · exact Fits.map Homebrew.Mmdvm2020.TypeRepeaterClosing.read_fits fun _ => by weigh [Homebrew.Mmdvm2020.TypeRepeaterConfigurationOrClosing.DataUnion.toPy]
  · exact Fits.map Homebrew.Mmdvm2020.TypeRepeaterConfiguration.read_fits fun _ => by weigh [Homebrew.Mmdvm2020.TypeRepeaterConfigurationOrClosing.DataUnion.toPy]

open Dmr.Homebrew in
theorem Homebrew.Mmdvm2020.TypeRepeaterLoginResponse.read_fits :
    Fits 0 0 (Homebrew.Mmdvm2020.TypeRepeaterLoginResponse.read) (fun x => 8 * PyVal.amount (Homebrew.Mmdvm2020.TypeRepeaterLoginResponse.toPy x)) 0 := by
  unfold Homebrew.Mmdvm2020.TypeRepeaterLoginResponse.read
  refine Fits.bind 0 Fits.u4be fun repeater_id => ?_
  refine Fits.bind 0 (Fits.bytes _) fun sha256 => ?_
  exact Fits.pure (by decide) (by weigh [Homebrew.Mmdvm2020.TypeRepeaterLoginResponse.toPy])

open Dmr.Homebrew in
theorem Homebrew.Mmdvm2020.TypeRepeaterLoginRequest.read_fits :
    Fits 0 0 (Homebrew.Mmdvm2020.TypeRepeaterLoginRequest.read) (fun x => 8 * PyVal.amount (Homebrew.Mmdvm2020.TypeRepeaterLoginRequest.toPy x)) 0 := by
  unfold Homebrew.Mmdvm2020.TypeRepeaterLoginRequest.read
  refine Fits.bind 0 Fits.u4be fun repeater_id => ?_
  exact Fits.pure (by decide) (by weigh [Homebrew.Mmdvm2020.TypeRepeaterLoginRequest.toPy])

open Dmr.Homebrew in
theorem Homebrew.Mmdvm2020.TypeMasterNotAccept.read_fits :
    Fits 0 0 (Homebrew.Mmdvm2020.TypeMasterNotAccept.read) (fun x => 8 * PyVal.amount (Homebrew.Mmdvm2020.TypeMasterNotAccept.toPy x)) 0 := by
  unfold Homebrew.Mmdvm2020.TypeMasterNotAccept.read
  refine Fits.bind 0 (Fits.bytes _) fun magic => ?_
  refine Fits.validate ?_
  refine Fits.bind 0 Fits.u4be fun repeater_id => ?_
  exact Fits.pure (by decide) (by weigh [Homebrew.Mmdvm2020.TypeMasterNotAccept.toPy])

open Dmr.Homebrew in
theorem Homebrew.Mmdvm2020.TypeUnknown.read_fits :
    Fits 0 0 (Homebrew.Mmdvm2020.TypeUnknown.read) (fun x => 8 * PyVal.amount (Homebrew.Mmdvm2020.TypeUnknown.toPy x)) 0 := by
  unfold Homebrew.Mmdvm2020.TypeUnknown.read
  refine Fits.bind 0 Fits.full fun unknown_data => ?_
  exact Fits.pure (by decide) (by weigh [Homebrew.Mmdvm2020.TypeUnknown.toPy])

open Dmr.Homebrew in
theorem Homebrew.Mmdvm2020.TypeMasterRepeaterAck.read_fits :
    Fits 0 0 (Homebrew.Mmdvm2020.TypeMasterRepeaterAck.read) (fun x => 8 * PyVal.amount (Homebrew.Mmdvm2020.TypeMasterRepeaterAck.toPy x)) 0 := by
  unfold Homebrew.Mmdvm2020.TypeMasterRepeaterAck.read
  refine Fits.bind 0 (Fits.bytes _) fun magic => ?_
  refine Fits.validate ?_
  refine Fits.bind 0 Fits.u4be fun repeater_id_or_challenge => ?_
  exact Fits.pure (by decide) (by weigh [Homebrew.Mmdvm2020.TypeMasterRepeaterAck.toPy])

open Dmr.Homebrew in
theorem Homebrew.Mmdvm2020.TypeMasterClosing.read_fits :
    Fits 0 0 (Homebrew.Mmdvm2020.TypeMasterClosing.read) (fun x => 8 * PyVal.amount (Homebrew.Mmdvm2020.TypeMasterClosing.toPy x)) 0 := by
  unfold Homebrew.Mmdvm2020.TypeMasterClosing.read
  refine Fits.bind 0 (Fits.bytes _) fun magic => ?_
  refine Fits.validate ?_
  refine Fits.bind 0 Fits.u4be fun repeater_id => ?_
  exact Fits.pure (by decide) (by weigh [Homebrew.Mmdvm2020.TypeMasterClosing.toPy])

open Dmr.Homebrew in
theorem Homebrew.Mmdvm2020.TypeDmrData.read_fits :
    Fits 0 0 (Homebrew.Mmdvm2020.TypeDmrData.read) (fun x => 8 * PyVal.amount (Homebrew.Mmdvm2020.TypeDmrData.toPy x)) 0 := by
  unfold Homebrew.Mmdvm2020.TypeDmrData.read
  refine Fits.bind 0 Fits.u1 fun sequence_no => ?_
  refine Fits.bind 0 (Fits.bits 24 (by decide)) fun source_id => ?_
  refine Fits.bind 0 (Fits.bits 24 (by decide)) fun target_id => ?_
  refine Fits.align ?_
  refine Fits.bind 0 Fits.u4be fun repeater_id => ?_
  refine Fits.bind 1 (Fits.asEnum (Fits.bits 1 (by decide))) fun slot_no => ?_
  refine Fits.bind 2 (Fits.asEnum (Fits.bits 1 (by decide))) fun call_type => ?_
  refine Fits.bind 4 (Fits.asEnum (Fits.bits 2 (by decide))) fun frame_type => ?_
  refine Fits.bind 0 (Fits.bits 4 (by decide)) fun data_type => ?_
  refine Fits.align ?_
  refine Fits.bind 0 Fits.u4be fun stream_id => ?_
  refine Fits.bind 0 (Fits.bytes _) fun dmr_data => ?_
  refine Fits.isEof fun eof1 => ?_
  refine Fits.bind 0 (Fits.optionally fun _ => Fits.u1) fun bit_error_rate => ?_
  refine Fits.isEof fun eof2 => ?_
  refine Fits.bind 0 (Fits.optionally fun _ => Fits.u1) fun rssi => ?_
  exact Fits.pure (by decide) (by weigh [Homebrew.Mmdvm2020.TypeDmrData.toPy])

open Dmr.Homebrew in
theorem Homebrew.Mmdvm2020.TypeRepeaterBeacon.read_fits :
    Fits 0 0 (Homebrew.Mmdvm2020.TypeRepeaterBeacon.read) (fun x => 8 * PyVal.amount (Homebrew.Mmdvm2020.TypeRepeaterBeacon.toPy x)) 0 := by
  unfold Homebrew.Mmdvm2020.TypeRepeaterBeacon.read
  exact Fits.pure (by decide) (by weigh [Homebrew.Mmdvm2020.TypeRepeaterBeacon.toPy])

open Dmr.Homebrew in
theorem Homebrew.Mmdvm2020.TypeRepeaterOptions.read_fits :
    Fits 0 0 (Homebrew.Mmdvm2020.TypeRepeaterOptions.read) (fun x => 8 * PyVal.amount (Homebrew.Mmdvm2020.TypeRepeaterOptions.toPy x)) 0 := by
  unfold Homebrew.Mmdvm2020.TypeRepeaterOptions.read
  refine Fits.bind 0 Fits.u4be fun repeater_id => ?_
  refine Fits.bind 0 (Fits.decodeWith Fits.full decodeAscii_short) fun options => ?_
  exact Fits.pure (by decide) (by weigh [Homebrew.Mmdvm2020.TypeRepeaterOptions.toPy])

open Dmr.Homebrew in
theorem Homebrew.Mmdvm2020.TypeRepeaterPing.read_fits :
    Fits 0 0 (Homebrew.Mmdvm2020.TypeRepeaterPing.read) (fun x => 8 * PyVal.amount (Homebrew.Mmdvm2020.TypeRepeaterPing.toPy x)) 0 := by
  unfold Homebrew.Mmdvm2020.TypeRepeaterPing.read
  refine Fits.bind 0 (Fits.bytes _) fun magic => ?_
  refine Fits.validate ?_
  refine Fits.bind 0 Fits.u4be fun repeater_id => ?_
  exact Fits.pure (by decide) (by weigh [Homebrew.Mmdvm2020.TypeRepeaterPing.toPy])

open Dmr.Homebrew in
theorem Homebrew.Mmdvm2020.readCommandData_fits (on : PyStr) :
    Fits 0 0 (Homebrew.Mmdvm2020.readCommandData on) (fun x => optW (fun y => 8 * PyVal.amount (Homebrew.Mmdvm2020.CommandDataUnion.toPy y) + 8 * fifthW (Homebrew.Mmdvm2020.CommandDataUnion.fifthLetter y)) x) 0 := by
  unfold Homebrew.Mmdvm2020.readCommandData
  refine Fits.ite (fun _ => Fits.map (Homebrew.Mmdvm2020.TypeRepeaterLoginRequest.read_fits) fun _ => by weigh [Homebrew.Mmdvm2020.CommandDataUnion.toPy, fifthW, Homebrew.Mmdvm2020.CommandDataUnion.fifthLetter, optW_none]) fun _ => ?_
  refine Fits.ite (fun _ => Fits.map (Homebrew.Mmdvm2020.TypeRadioPosition.read_fits) fun _ => by weigh [Homebrew.Mmdvm2020.CommandDataUnion.toPy, fifthW, Homebrew.Mmdvm2020.CommandDataUnion.fifthLetter, optW_none]) fun _ => ?_
  refine Fits.ite (fun _ => Fits.map (Homebrew.Mmdvm2020.TypeMasterRepeaterAck.read_fits) fun _ => by weigh [Homebrew.Mmdvm2020.CommandDataUnion.toPy, fifthW, Homebrew.Mmdvm2020.CommandDataUnion.fifthLetter, optW_none]) fun _ => ?_
  refine Fits.ite (fun _ => Fits.map (Homebrew.Mmdvm2020.TypeRepeaterLoginResponse.read_fits) fun _ => by weigh [Homebrew.Mmdvm2020.CommandDataUnion.toPy, fifthW, Homebrew.Mmdvm2020.CommandDataUnion.fifthLetter, optW_none]) fun _ => ?_
  refine Fits.ite (fun _ => Fits.map (Homebrew.Mmdvm2020.TypeRepeaterConfigurationOrClosing.read_fits) fun x => by have := Homebrew.Mmdvm2020.fifthW_le x; weigh [Homebrew.Mmdvm2020.CommandDataUnion.toPy]) fun _ => ?_
  refine Fits.ite (fun _ => Fits.map (Homebrew.Mmdvm2020.TypeDmrData.read_fits) fun _ => by weigh [Homebrew.Mmdvm2020.CommandDataUnion.toPy, fifthW, Homebrew.Mmdvm2020.CommandDataUnion.fifthLetter, optW_none]) fun _ => ?_
  refine Fits.ite (fun _ => Fits.map (Homebrew.Mmdvm2020.TypeMasterClosing.read_fits) fun _ => by weigh [Homebrew.Mmdvm2020.CommandDataUnion.toPy, fifthW, Homebrew.Mmdvm2020.CommandDataUnion.fifthLetter, optW_none]) fun _ => ?_
  refine Fits.ite (fun _ => Fits.map (Homebrew.Mmdvm2020.TypeRepeaterPing.read_fits) fun _ => by weigh [Homebrew.Mmdvm2020.CommandDataUnion.toPy, fifthW, Homebrew.Mmdvm2020.CommandDataUnion.fifthLetter, optW_none]) fun _ => ?_
  refine Fits.ite (fun _ => Fits.map (Homebrew.Mmdvm2020.TypeRepeaterOptions.read_fits) fun _ => by weigh [Homebrew.Mmdvm2020.CommandDataUnion.toPy, fifthW, Homebrew.Mmdvm2020.CommandDataUnion.fifthLetter, optW_none]) fun _ => ?_
  refine Fits.ite (fun _ => Fits.map (Homebrew.Mmdvm2020.TypeMasterPong.read_fits) fun _ => by weigh [Homebrew.Mmdvm2020.CommandDataUnion.toPy, fifthW, Homebrew.Mmdvm2020.CommandDataUnion.fifthLetter, optW_none]) fun _ => ?_
  refine Fits.ite (fun _ => Fits.map (Homebrew.Mmdvm2020.TypeRepeaterBeacon.read_fits) fun _ => by weigh [Homebrew.Mmdvm2020.CommandDataUnion.toPy, fifthW, Homebrew.Mmdvm2020.CommandDataUnion.fifthLetter, optW_none]) fun _ => ?_
  refine Fits.ite (fun _ => Fits.map (Homebrew.Mmdvm2020.TypeMasterNotAccept.read_fits) fun _ => by weigh [Homebrew.Mmdvm2020.CommandDataUnion.toPy, fifthW, Homebrew.Mmdvm2020.CommandDataUnion.fifthLetter, optW_none]) fun _ => ?_
  refine Fits.ite (fun _ => Fits.map (Homebrew.Mmdvm2020.TypeTalkerAlias.read_fits) fun _ => by weigh [Homebrew.Mmdvm2020.CommandDataUnion.toPy, fifthW, Homebrew.Mmdvm2020.CommandDataUnion.fifthLetter, optW_none]) fun _ => ?_
  exact Fits.pure (by decide) (Nat.zero_le _)

open Dmr.Homebrew in
theorem Homebrew.Mmdvm2020.read_fits :
    Fits 0 0 (Homebrew.Mmdvm2020.read) (fun x => 8 * PyVal.amount (Homebrew.Mmdvm2020.toPy x)) 0 := by
  unfold Homebrew.Mmdvm2020.read
  refine Fits.bind 0 (Fits.decodeWith (Fits.bytes _) decodeAscii_short) fun command_prefix => ?_
  refine Fits.bind 0 (Homebrew.Mmdvm2020.readCommandData_fits _) fun command_data => ?_
  refine Fits.pure (by decide) ?_
  cases command_data <;> weigh [Homebrew.Mmdvm2020.toPy, amount_fifth]

open Dmr.Hytera in
theorem Hytera.RadioIp.read_fits :
    Fits 0 0 (Hytera.RadioIp.read) (fun x => 8 * PyVal.amount (Hytera.RadioIp.toPy x)) 0 := by
  unfold Hytera.RadioIp.read
  refine Fits.bind 0 Fits.u1 fun subnet => ?_
  refine Fits.bind 0 Fits.u1 fun radio_id_1 => ?_
  refine Fits.bind 0 Fits.u1 fun radio_id_2 => ?_
  refine Fits.bind 0 Fits.u1 fun radio_id_3 => ?_
  exact Fits.pure (by decide) (by weigh [Hytera.RadioIp.toPy])

open Dmr.Hytera in
theorem Hytera.DataDeliveryStates.read_fits :
    Fits 0 0 (Hytera.DataDeliveryStates.read) (fun x => 8 * PyVal.amount (Hytera.DataDeliveryStates.toPy x)) 0 := by
  unfold Hytera.DataDeliveryStates.read
  refine Fits.bind 0 (Fits.bytes _) fun reserved => ?_
  refine Fits.bind 0 (Fits.asEnum Fits.u1) fun state_type => ?_
  refine Fits.bind 0 Fits.u2be fun message_length => ?_
  refine Fits.bind 0 (Hytera.RadioIp.read_fits) fun radio_ip => ?_
  refine Fits.bind 0 Fits.u2be fun protocol_opcode => ?_
  refine Fits.bind 0 (Fits.asEnum Fits.u1) fun result => ?_
  exact Fits.pure (by decide) (by weigh [Hytera.DataDeliveryStates.toPy])

open Dmr.Hytera in
theorem Hytera.DataTransmitProtocol.LastDataSlice.read_fits :
    Fits 0 0 (Hytera.DataTransmitProtocol.LastDataSlice.read) (fun x => 8 * PyVal.amount (Hytera.DataTransmitProtocol.LastDataSlice.toPy x)) 0 := by
  unfold Hytera.DataTransmitProtocol.LastDataSlice.read
  refine Fits.bind 0 (Hytera.RadioIp.read_fits) fun destination_ip => ?_
  refine Fits.bind 0 (Hytera.RadioIp.read_fits) fun source_ip => ?_
  exact Fits.pure (by decide) (by weigh [Hytera.DataTransmitProtocol.LastDataSlice.toPy])

open Dmr.Hytera in
theorem Hytera.DataTransmitProtocol.DtpRequest.read_fits (parent_message_length : Nat) :
    Fits 0 0 (Hytera.DataTransmitProtocol.DtpRequest.read parent_message_length) (fun x => 8 * PyVal.amount (Hytera.DataTransmitProtocol.DtpRequest.toPy x)) 0 := by
  unfold Hytera.DataTransmitProtocol.DtpRequest.read
  refine Fits.bind 0 (Hytera.RadioIp.read_fits) fun destination_ip => ?_
  refine Fits.bind 0 (Hytera.RadioIp.read_fits) fun source_ip => ?_
  refine Fits.bind 0 Fits.u2be fun file_size => ?_
  refine Fits.bind 0 (Fits.decodeWith (Fits.bytesInt _) decodeUtf16le_short) fun file_name => ?_
  exact Fits.pure (by decide) (by weigh [Hytera.DataTransmitProtocol.DtpRequest.toPy])

open Dmr.Hytera in
theorem Hytera.DataTransmitProtocol.DataSliceAnswer.read_fits :
    Fits 0 0 (Hytera.DataTransmitProtocol.DataSliceAnswer.read) (fun x => 8 * PyVal.amount (Hytera.DataTransmitProtocol.DataSliceAnswer.toPy x)) 0 := by
  unfold Hytera.DataTransmitProtocol.DataSliceAnswer.read
  refine Fits.bind 0 (Hytera.RadioIp.read_fits) fun destination_ip => ?_
  refine Fits.bind 0 (Hytera.RadioIp.read_fits) fun source_ip => ?_
  refine Fits.bind 0 Fits.u2be fun block_number => ?_
  refine Fits.bind 0 (Fits.asEnum Fits.u1) fun result => ?_
  exact Fits.pure (by decide) (by weigh [Hytera.DataTransmitProtocol.DataSliceAnswer.toPy])

open Dmr.Hytera in
theorem Hytera.DataTransmitProtocol.DataSliceTransmit.read_fits (parent_message_length : Nat) :
    Fits 0 0 (Hytera.DataTransmitProtocol.DataSliceTransmit.read parent_message_length) (fun x => 8 * PyVal.amount (Hytera.DataTransmitProtocol.DataSliceTransmit.toPy x)) 0 := by
  unfold Hytera.DataTransmitProtocol.DataSliceTransmit.read
  refine Fits.bind 0 (Hytera.RadioIp.read_fits) fun destination_ip => ?_
  refine Fits.bind 0 (Hytera.RadioIp.read_fits) fun source_ip => ?_
  refine Fits.bind 0 Fits.u2be fun block_number => ?_
  refine Fits.bind 0 (Fits.bytesInt _) fun file_data => ?_
  exact Fits.pure (by decide) (by weigh [Hytera.DataTransmitProtocol.DataSliceTransmit.toPy])

open Dmr.Hytera in
theorem Hytera.DataTransmitProtocol.LastDataSliceAnswer.read_fits :
    Fits 0 0 (Hytera.DataTransmitProtocol.LastDataSliceAnswer.read) (fun x => 8 * PyVal.amount (Hytera.DataTransmitProtocol.LastDataSliceAnswer.toPy x)) 0 := by
  unfold Hytera.DataTransmitProtocol.LastDataSliceAnswer.read
  refine Fits.bind 0 (Hytera.RadioIp.read_fits) fun destination_ip => ?_
  refine Fits.bind 0 (Hytera.RadioIp.read_fits) fun source_ip => ?_
  refine Fits.bind 0 (Fits.asEnum Fits.u1) fun result => ?_
  exact Fits.pure (by decide) (by weigh [Hytera.DataTransmitProtocol.LastDataSliceAnswer.toPy])

open Dmr.Hytera in
theorem Hytera.DataTransmitProtocol.DtpAnswer.read_fits :
    Fits 0 0 (Hytera.DataTransmitProtocol.DtpAnswer.read) (fun x => 8 * PyVal.amount (Hytera.DataTransmitProtocol.DtpAnswer.toPy x)) 0 := by
  unfold Hytera.DataTransmitProtocol.DtpAnswer.read
  refine Fits.bind 0 (Hytera.RadioIp.read_fits) fun destination_ip => ?_
  refine Fits.bind 0 (Hytera.RadioIp.read_fits) fun source_ip => ?_
  refine Fits.bind 0 (Fits.asEnum Fits.u1) fun result => ?_
  exact Fits.pure (by decide) (by weigh [Hytera.DataTransmitProtocol.DtpAnswer.toPy])

open Dmr.Hytera in
theorem Hytera.DataTransmitProtocol.readData_fits (on : EnumVal DataTransmitProtocol.ServiceSpecificTypes) (message_length : Nat) :
    Fits 0 0 (Hytera.DataTransmitProtocol.readData on message_length) (fun x => optW (fun y => 8 * PyVal.amount (Hytera.DataTransmitProtocol.DataUnion.toPy y)) x) 0 := by
  unfold Hytera.DataTransmitProtocol.readData
  refine Fits.ite (fun _ => Fits.map (Hytera.DataTransmitProtocol.DtpRequest.read_fits _) fun _ => by weigh [Hytera.DataTransmitProtocol.DataUnion.toPy]) fun _ => ?_
  refine Fits.ite (fun _ => Fits.map (Hytera.DataTransmitProtocol.DataSliceTransmit.read_fits _) fun _ => by weigh [Hytera.DataTransmitProtocol.DataUnion.toPy]) fun _ => ?_
  refine Fits.ite (fun _ => Fits.map (Hytera.DataTransmitProtocol.DataSliceAnswer.read_fits) fun _ => by weigh [Hytera.DataTransmitProtocol.DataUnion.toPy]) fun _ => ?_
  refine Fits.ite (fun _ => Fits.map (Hytera.DataTransmitProtocol.LastDataSliceAnswer.read_fits) fun _ => by weigh [Hytera.DataTransmitProtocol.DataUnion.toPy]) fun _ => ?_
  refine Fits.ite (fun _ => Fits.map (Hytera.DataTransmitProtocol.DtpAnswer.read_fits) fun _ => by weigh [Hytera.DataTransmitProtocol.DataUnion.toPy]) fun _ => ?_
  refine Fits.ite (fun _ => Fits.map (Hytera.DataTransmitProtocol.LastDataSlice.read_fits) fun _ => by weigh [Hytera.DataTransmitProtocol.DataUnion.toPy]) fun _ => ?_
  exact Fits.pure (by decide) (Nat.zero_le _)

open Dmr.Hytera in
theorem Hytera.DataTransmitProtocol.read_fits :
    Fits 0 0 (Hytera.DataTransmitProtocol.read) (fun x => 8 * PyVal.amount (Hytera.DataTransmitProtocol.toPy x)) 0 := by
  unfold Hytera.DataTransmitProtocol.read
  refine Fits.bind 0 (Fits.asEnum Fits.u1) fun service_type => ?_
  refine Fits.bind 0 (Fits.asEnum Fits.u1) fun service_specific_type => ?_
  refine Fits.bind 0 Fits.u2be fun message_length => ?_
  refine Fits.bind 0 (Hytera.DataTransmitProtocol.readData_fits _ _) fun data => ?_
  exact Fits.pure (by decide) (by weigh [Hytera.DataTransmitProtocol.toPy])

open Dmr.Hytera in
theorem Hytera.Datetimestring.read_fits :
    Fits 0 0 (Hytera.Datetimestring.read) (fun x => 8 * PyVal.amount (Hytera.Datetimestring.toPy x)) 0 := by
  unfold Hytera.Datetimestring.read
  refine Fits.bind 0 (Fits.decodeWith (Fits.bytes _) decodeUtf8_short) fun datetime => ?_
  exact Fits.pure (by decide) (by weigh [Hytera.Datetimestring.toPy])

open Dmr.Hytera in
theorem Hytera.Gpsdata.read_fits :
    Fits 0 0 (Hytera.Gpsdata.read) (fun x => 8 * PyVal.amount (Hytera.Gpsdata.toPy x)) 0 := by
  unfold Hytera.Gpsdata.read
  refine Fits.bind 0 (Fits.bytes _) fun gps_status => ?_
  refine Fits.bind 0 (Fits.bytes _) fun gps_time => ?_
  refine Fits.bind 0 (Fits.bytes _) fun gps_date => ?_
  refine Fits.bind 0 (Fits.bytes _) fun north_south => ?_
  refine Fits.bind 0 (Fits.bytes _) fun latitude => ?_
  refine Fits.bind 0 (Fits.bytes _) fun east_west => ?_
  refine Fits.bind 0 (Fits.bytes _) fun longitude => ?_
  refine Fits.bind 0 (Fits.bytes _) fun speed => ?_
  refine Fits.bind 0 (Fits.bytes _) fun direction => ?_
  exact Fits.pure (by decide) (by weigh [Hytera.Gpsdata.toPy])

open Dmr.Hytera in
theorem Hytera.HyteraDmrApplicationProtocol.UndefinedProtocol.read_fits :
    Fits 0 0 (Hytera.HyteraDmrApplicationProtocol.UndefinedProtocol.read) (fun x => 8 * PyVal.amount (Hytera.HyteraDmrApplicationProtocol.UndefinedProtocol.toPy x)) 0 := by
  unfold Hytera.HyteraDmrApplicationProtocol.UndefinedProtocol.read
  refine Fits.bind 0 Fits.full fun data => ?_
  exact Fits.pure (by decide) (by weigh [Hytera.HyteraDmrApplicationProtocol.UndefinedProtocol.toPy])

open Dmr.Hytera in
theorem Hytera.RadioRegistrationService.read_fits :
    Fits 0 0 (Hytera.RadioRegistrationService.read) (fun x => 8 * PyVal.amount (Hytera.RadioRegistrationService.toPy x)) 0 := by
  unfold Hytera.RadioRegistrationService.read
  refine Fits.bind 0 (Fits.bytes _) fun opcode => ?_
  refine Fits.validate ?_
  refine Fits.bind 0 (Fits.asEnum Fits.u1) fun rrs_type => ?_
  refine Fits.bind 0 Fits.u2be fun message_length => ?_
  refine Fits.bind 0 (Hytera.RadioIp.read_fits) fun radio_ip => ?_
  refine Fits.bind 0 (Fits.optionally fun _ => Fits.u1) fun result => ?_
  refine Fits.bind 0 (Fits.optionally fun _ => Fits.u4be) fun valid_time => ?_
  exact Fits.pure (by decide) (by weigh [Hytera.RadioRegistrationService.toPy])

open Dmr.Hytera in
theorem Hytera.TelemetryProtocol.StandardStatusRequest.read_fits :
    Fits 0 0 (Hytera.TelemetryProtocol.StandardStatusRequest.read) (fun x => 8 * PyVal.amount (Hytera.TelemetryProtocol.StandardStatusRequest.toPy x)) 0 := by
  unfold Hytera.TelemetryProtocol.StandardStatusRequest.read
  refine Fits.bind 0 (Hytera.RadioIp.read_fits) fun source_ip => ?_
  refine Fits.bind 0 (Hytera.RadioIp.read_fits) fun target_ip => ?_
  refine Fits.bind 0 (Fits.asEnum Fits.u1) fun pc_flag => ?_
  refine Fits.bind 0 (Fits.asEnum Fits.u1) fun call_type => ?_
  refine Fits.bind 0 (Fits.bytes _) fun vio_select => ?_
  exact Fits.pure (by decide) (by weigh [Hytera.TelemetryProtocol.StandardStatusRequest.toPy])

open Dmr.Hytera in
theorem Hytera.TelemetryProtocol.RemoteControlAnswer.read_fits :
    Fits 0 0 (Hytera.TelemetryProtocol.RemoteControlAnswer.read) (fun x => 8 * PyVal.amount (Hytera.TelemetryProtocol.RemoteControlAnswer.toPy x)) 0 := by
  unfold Hytera.TelemetryProtocol.RemoteControlAnswer.read
  refine Fits.bind 0 (Hytera.RadioIp.read_fits) fun source_ip => ?_
  refine Fits.bind 0 (Hytera.RadioIp.read_fits) fun target_ip => ?_
  refine Fits.bind 0 (Fits.asEnum Fits.u1) fun pc_flag => ?_
  refine Fits.bind 0 (Fits.asEnum Fits.u1) fun call_type => ?_
  refine Fits.bind 0 (Fits.bytes _) fun vio_select => ?_
  refine Fits.bind 0 (Fits.asEnum Fits.u1) fun result => ?_
  exact Fits.pure (by decide) (by weigh [Hytera.TelemetryProtocol.RemoteControlAnswer.toPy])

open Dmr.Hytera in
theorem Hytera.TelemetryProtocol.VioExtendedStatus.read_fits :
    Fits 0 0 (Hytera.TelemetryProtocol.VioExtendedStatus.read) (fun x => 8 * PyVal.amount (Hytera.TelemetryProtocol.VioExtendedStatus.toPy x)) 0 := by
  unfold Hytera.TelemetryProtocol.VioExtendedStatus.read
  refine Fits.bind 0 (Fits.asEnum Fits.u1) fun result => ?_
  refine Fits.bind 0 Fits.u2be fun message_length => ?_
  refine Fits.bind 0 (Fits.decodeWith (Fits.bytes _) decodeUtf16le_short) fun message => ?_
  exact Fits.pure (by decide) (by weigh [Hytera.TelemetryProtocol.VioExtendedStatus.toPy])

open Dmr.Hytera in
theorem Hytera.TelemetryProtocol.ExtendedStatusReport.read_fits :
    Fits 0 0 (Hytera.TelemetryProtocol.ExtendedStatusReport.read) (fun x => 8 * PyVal.amount (Hytera.TelemetryProtocol.ExtendedStatusReport.toPy x)) 0 := by
  unfold Hytera.TelemetryProtocol.ExtendedStatusReport.read
  refine Fits.bind 0 (Hytera.RadioIp.read_fits) fun source_ip => ?_
  refine Fits.bind 0 (Hytera.RadioIp.read_fits) fun target_ip => ?_
  refine Fits.bind 0 (Fits.asEnum Fits.u1) fun pc_flag => ?_
  refine Fits.bind 0 (Fits.asEnum Fits.u1) fun call_type => ?_
  refine Fits.bind 0 (Fits.bytes _) fun vio_select => ?_
  refine Fits.bind 0 (Hytera.TelemetryProtocol.VioExtendedStatus.read_fits) fun result_messages => ?_
  exact Fits.pure (by decide) (by weigh [Hytera.TelemetryProtocol.ExtendedStatusReport.toPy])

open Dmr.Hytera in
theorem Hytera.TelemetryProtocol.RemoteControlRequest.read_fits :
    Fits 0 0 (Hytera.TelemetryProtocol.RemoteControlRequest.read) (fun x => 8 * PyVal.amount (Hytera.TelemetryProtocol.RemoteControlRequest.toPy x)) 0 := by
  unfold Hytera.TelemetryProtocol.RemoteControlRequest.read
  refine Fits.bind 0 (Hytera.RadioIp.read_fits) fun source_ip => ?_
  refine Fits.bind 0 (Hytera.RadioIp.read_fits) fun target_ip => ?_
  refine Fits.bind 0 (Fits.asEnum Fits.u1) fun pc_flag => ?_
  refine Fits.bind 0 (Fits.asEnum Fits.u1) fun call_type => ?_
  refine Fits.bind 0 (Fits.bytes _) fun vio_select => ?_
  refine Fits.bind 0 (Fits.asEnum Fits.u1) fun operation => ?_
  exact Fits.pure (by decide) (by weigh [Hytera.TelemetryProtocol.RemoteControlRequest.toPy])

open Dmr.Hytera in
theorem Hytera.TelemetryProtocol.StandardStatusReport.read_fits :
    Fits 0 0 (Hytera.TelemetryProtocol.StandardStatusReport.read) (fun x => 8 * PyVal.amount (Hytera.TelemetryProtocol.StandardStatusReport.toPy x)) 0 := by
  unfold Hytera.TelemetryProtocol.StandardStatusReport.read
  refine Fits.bind 0 (Hytera.RadioIp.read_fits) fun source_ip => ?_
  refine Fits.bind 0 (Hytera.RadioIp.read_fits) fun target_ip => ?_
  refine Fits.bind 0 (Fits.asEnum Fits.u1) fun pc_flag => ?_
  refine Fits.bind 0 (Fits.asEnum Fits.u1) fun call_type => ?_
  refine Fits.bind 0 (Fits.bytes _) fun vio_select => ?_
  refine Fits.bind 0 (Fits.asEnum Fits.u1) fun result => ?_
  exact Fits.pure (by decide) (by weigh [Hytera.TelemetryProtocol.StandardStatusReport.toPy])

open Dmr.Hytera in
theorem Hytera.TelemetryProtocol.readData_fits (on : EnumVal TelemetryProtocol.ServiceSpecificTypes) :
    Fits 0 0 (Hytera.TelemetryProtocol.readData on) (fun x => optW (fun y => 8 * PyVal.amount (Hytera.TelemetryProtocol.DataUnion.toPy y)) x) 0 := by
  unfold Hytera.TelemetryProtocol.readData
  refine Fits.ite (fun _ => Fits.map (Hytera.TelemetryProtocol.StandardStatusRequest.read_fits) fun _ => by weigh [Hytera.TelemetryProtocol.DataUnion.toPy]) fun _ => ?_
  refine Fits.ite (fun _ => Fits.map (Hytera.TelemetryProtocol.RemoteControlAnswer.read_fits) fun _ => by weigh [Hytera.TelemetryProtocol.DataUnion.toPy]) fun _ => ?_
  refine Fits.ite (fun _ => Fits.map (Hytera.TelemetryProtocol.ExtendedStatusReport.read_fits) fun _ => by weigh [Hytera.TelemetryProtocol.DataUnion.toPy]) fun _ => ?_
  refine Fits.ite (fun _ => Fits.map (Hytera.TelemetryProtocol.RemoteControlRequest.read_fits) fun _ => by weigh [Hytera.TelemetryProtocol.DataUnion.toPy]) fun _ => ?_
  refine Fits.ite (fun _ => Fits.map (Hytera.TelemetryProtocol.StandardStatusReport.read_fits) fun _ => by weigh [Hytera.TelemetryProtocol.DataUnion.toPy]) fun _ => ?_
  exact Fits.pure (by decide) (Nat.zero_le _)

open Dmr.Hytera in
theorem Hytera.TelemetryProtocol.read_fits :
    Fits 0 0 (Hytera.TelemetryProtocol.read) (fun x => 8 * PyVal.amount (Hytera.TelemetryProtocol.toPy x)) 0 := by
  unfold Hytera.TelemetryProtocol.read
  refine Fits.bind 0 (Fits.asEnum Fits.u1) fun _ => ?_
  refine Fits.bind 0 Fits.u1 fun _ => ?_
  refine Fits.bind 0 Fits.u2be fun _ => ?_
  refine Fits.peek (Silent.peek 0 Bytewise.u2be.asEnum : Silent TelemetryProtocol.computeSpecificService) fun _ => ?_
  refine Fits.bind 0 (Hytera.TelemetryProtocol.readData_fits _) fun _ => ?_
  exact Fits.pure (by decide) (by weigh [Hytera.TelemetryProtocol.toPy])

open Dmr.Hytera in
theorem Hytera.RadioControlProtocol.CallReply.read_fits :
    Fits 0 0 (Hytera.RadioControlProtocol.CallReply.read) (fun x => 8 * PyVal.amount (Hytera.RadioControlProtocol.CallReply.toPy x)) 0 := by
  unfold Hytera.RadioControlProtocol.CallReply.read
  refine Fits.bind 0 (Fits.asEnum Fits.u1) fun result => ?_
  exact Fits.pure (by decide) (by weigh [Hytera.RadioControlProtocol.CallReply.toPy])

open Dmr.Hytera in
theorem Hytera.RadioControlProtocol.RadioIdentificationReply.read_fits (parent_message_length : Nat) :
    Fits 0 0 (Hytera.RadioControlProtocol.RadioIdentificationReply.read parent_message_length) (fun x => 8 * PyVal.amount (Hytera.RadioControlProtocol.RadioIdentificationReply.toPy x)) 0 := by
  unfold Hytera.RadioControlProtocol.RadioIdentificationReply.read
  refine Fits.bind 0 (Fits.optionally fun _ => (Fits.bytes _)) fun header => ?_
  refine Fits.bind 0 (Fits.optionally fun _ => (Fits.decodeWith (Fits.bytes _) decodeUtf16be_short)) fun text => ?_
  refine Fits.bind 0 (Fits.optionally fun _ => (Fits.bytes _)) fun footer => ?_
  exact Fits.pure (by decide) (by weigh [Hytera.RadioControlProtocol.RadioIdentificationReply.toPy])

open Dmr.Hytera in
theorem Hytera.RadioControlProtocol.BroadcastConfiguration.read_fits :
    Fits 0 0 (Hytera.RadioControlProtocol.BroadcastConfiguration.read) (fun x => 8 + 8 * PyVal.amount (Hytera.RadioControlProtocol.BroadcastConfiguration.toPy x)) 0 := by
  unfold Hytera.RadioControlProtocol.BroadcastConfiguration.read
  refine Fits.bind 0 Fits.u1 fun config_operation => ?_
  refine Fits.bind 0 Fits.u1 fun config_target => ?_
  exact Fits.pure (by decide) (by weigh [Hytera.RadioControlProtocol.BroadcastConfiguration.toPy])

open Dmr.Hytera in
theorem Hytera.RadioControlProtocol.BroadcastStatusConfigurationRequest.read_fits :
    Fits 0 0 (Hytera.RadioControlProtocol.BroadcastStatusConfigurationRequest.read) (fun x => 8 * PyVal.amount (Hytera.RadioControlProtocol.BroadcastStatusConfigurationRequest.toPy x)) 0 := by
  unfold Hytera.RadioControlProtocol.BroadcastStatusConfigurationRequest.read
  refine Fits.bind 0 Fits.u1 fun num_broadcast_configuration => ?_
  refine Fits.bind 0 (Fits.repeatN (Hytera.RadioControlProtocol.BroadcastConfiguration.read_fits) _) fun broadcast_configuration => ?_
  exact Fits.pure (by decide) (by weigh [Hytera.RadioControlProtocol.BroadcastStatusConfigurationRequest.toPy])

open Dmr.Hytera in
theorem Hytera.RadioControlProtocol.CallRequest.read_fits :
    Fits 0 0 (Hytera.RadioControlProtocol.CallRequest.read) (fun x => 8 * PyVal.amount (Hytera.RadioControlProtocol.CallRequest.toPy x)) 0 := by
  unfold Hytera.RadioControlProtocol.CallRequest.read
  refine Fits.bind 0 (Fits.asEnum Fits.u1) fun call_type => ?_
  refine Fits.bind 0 Fits.u4le fun target_id => ?_
  exact Fits.pure (by decide) (by weigh [Hytera.RadioControlProtocol.CallRequest.toPy])

open Dmr.Hytera in
theorem Hytera.RadioControlProtocol.RemoveRadioRequest.read_fits :
    Fits 0 0 (Hytera.RadioControlProtocol.RemoveRadioRequest.read) (fun x => 8 * PyVal.amount (Hytera.RadioControlProtocol.RemoveRadioRequest.toPy x)) 0 := by
  unfold Hytera.RadioControlProtocol.RemoveRadioRequest.read
  exact Fits.pure (by decide) (by weigh [Hytera.RadioControlProtocol.RemoveRadioRequest.toPy])

open Dmr.Hytera in
theorem Hytera.RadioControlProtocol.BroadcastStatusConfigurationReply.read_fits :
    Fits 0 0 (Hytera.RadioControlProtocol.BroadcastStatusConfigurationReply.read) (fun x => 8 * PyVal.amount (Hytera.RadioControlProtocol.BroadcastStatusConfigurationReply.toPy x)) 0 := by
  unfold Hytera.RadioControlProtocol.BroadcastStatusConfigurationReply.read
  refine Fits.bind 0 (Fits.asEnum Fits.u1) fun result => ?_
  exact Fits.pure (by decide) (by weigh [Hytera.RadioControlProtocol.BroadcastStatusConfigurationReply.toPy])

open Dmr.Hytera in
theorem Hytera.RadioControlProtocol.RemoveRadioReply.read_fits :
    Fits 0 0 (Hytera.RadioControlProtocol.RemoveRadioReply.read) (fun x => 8 * PyVal.amount (Hytera.RadioControlProtocol.RemoveRadioReply.toPy x)) 0 := by
  unfold Hytera.RadioControlProtocol.RemoveRadioReply.read
  refine Fits.bind 0 (Fits.asEnum Fits.u1) fun result => ?_
  exact Fits.pure (by decide) (by weigh [Hytera.RadioControlProtocol.RemoveRadioReply.toPy])

open Dmr.Hytera in
theorem Hytera.RadioControlProtocol.GenericData.read_fits (parent_message_length : Nat) :
    Fits 0 0 (Hytera.RadioControlProtocol.GenericData.read parent_message_length) (fun x => 8 * PyVal.amount (Hytera.RadioControlProtocol.GenericData.toPy x)) 0 := by
  unfold Hytera.RadioControlProtocol.GenericData.read
  refine Fits.bind 0 (Fits.bytes _) fun data => ?_
  exact Fits.pure (by decide) (by weigh [Hytera.RadioControlProtocol.GenericData.toPy])

open Dmr.Hytera in
theorem Hytera.RadioControlProtocol.readData_fits (on : EnumVal RadioControlProtocol.ServiceTypes) (message_length : Nat) :
    Fits 0 0 (Hytera.RadioControlProtocol.readData on message_length) (fun x => 8 * PyVal.amount (Hytera.RadioControlProtocol.DataUnion.toPy x)) 0 := by
  unfold Hytera.RadioControlProtocol.readData
  refine Fits.ite (fun _ => Fits.map (Hytera.RadioControlProtocol.CallReply.read_fits) fun _ => by weigh [Hytera.RadioControlProtocol.DataUnion.toPy]) fun _ => ?_
  refine Fits.ite (fun _ => Fits.map (Hytera.RadioControlProtocol.RadioIdentificationReply.read_fits _) fun _ => by weigh [Hytera.RadioControlProtocol.DataUnion.toPy]) fun _ => ?_
  refine Fits.ite (fun _ => Fits.map (Hytera.RadioControlProtocol.BroadcastStatusConfigurationRequest.read_fits) fun _ => by weigh [Hytera.RadioControlProtocol.DataUnion.toPy]) fun _ => ?_
  refine Fits.ite (fun _ => Fits.map (Hytera.RadioControlProtocol.CallRequest.read_fits) fun _ => by weigh [Hytera.RadioControlProtocol.DataUnion.toPy]) fun _ => ?_
  refine Fits.ite (fun _ => Fits.map (Hytera.RadioControlProtocol.RemoveRadioRequest.read_fits) fun _ => by weigh [Hytera.RadioControlProtocol.DataUnion.toPy]) fun _ => ?_
  refine Fits.ite (fun _ => Fits.map (Hytera.RadioControlProtocol.BroadcastStatusConfigurationReply.read_fits) fun _ => by weigh [Hytera.RadioControlProtocol.DataUnion.toPy]) fun _ => ?_
  refine Fits.ite (fun _ => Fits.map (Hytera.RadioControlProtocol.RemoveRadioReply.read_fits) fun _ => by weigh [Hytera.RadioControlProtocol.DataUnion.toPy]) fun _ => ?_
  exact Fits.map (Hytera.RadioControlProtocol.GenericData.read_fits _) fun _ => by weigh [Hytera.RadioControlProtocol.DataUnion.toPy]

open Dmr.Hytera in
theorem Hytera.RadioControlProtocol.read_fits :
    Fits 0 0 (Hytera.RadioControlProtocol.read) (fun x => 8 * PyVal.amount (Hytera.RadioControlProtocol.toPy x)) 0 := by
  unfold Hytera.RadioControlProtocol.read
  refine Fits.bind 0 (Fits.asEnum Fits.u2le) fun service_type => ?_
  refine Fits.bind 0 Fits.u2le fun message_length => ?_
  refine Fits.bind 0 (Hytera.RadioControlProtocol.readData_fits _ _) fun data => ?_
  exact Fits.pure (by decide) (by weigh [Hytera.RadioControlProtocol.toPy])

open Dmr.Hytera in
theorem Hytera.TextMessageProtocol.readOptionField_fits (len : Option Nat) :
    Fits 0 0 (Hytera.TextMessageProtocol.readOptionField len) (fun x => 8 * x.length) 0 := by
  unfold Hytera.TextMessageProtocol.readOptionField
  cases len
  · exact Fits.throw
  · exact Fits.bytes _

open Dmr.Hytera in
theorem Hytera.TextMessageProtocol.read_fits :
    Fits 0 0 (Hytera.TextMessageProtocol.read) (fun x => 8 * PyVal.amount (Hytera.TextMessageProtocol.toPy x)) 0 := by
  unfold Hytera.TextMessageProtocol.read
  refine Fits.bind 1 (Fits.asEnum (Fits.bits 1 (by decide))) fun _ => ?_
  refine Fits.bind 2 (Fits.asEnum (Fits.bits 1 (by decide))) fun option_flag => ?_
  refine Fits.bind 0 (Fits.bits 6 (by decide)) fun _ => ?_
  refine Fits.align ?_
  refine Fits.bind 0 (Fits.asEnum Fits.u1) fun service_type => ?_
  refine Fits.bind 0 Fits.u2be fun message_length => ?_
  cases option_flag with
  | raw v => exact Fits.throw
  | known e =>
    refine Fits.bind 0 (ga := fun _ => 0) (Fits.pure (by decide) (by decide)) fun hasopt => ?_
    refine Fits.bind 0 (Fits.optionally fun _ => Fits.u2be) fun option_field_len => ?_
    refine Fits.bind 0 Fits.u4be fun _ => ?_
    refine Fits.bind 0 Hytera.RadioIp.read_fits fun _ => ?_
    refine Fits.bind 0 (Fits.optionally fun _ => Hytera.RadioIp.read_fits) fun _ => ?_
    refine Fits.bind 0 (Fits.optionally fun _ => Fits.asEnum Fits.u1) fun _ => ?_
    refine Fits.bind 0 (Fits.optionally (g := fun s => 8 * s.length) fun _ => ?_) fun tmdata => ?_
    · refine Fits.bind 0 (ga := fun _ => 0) ?_ fun _ => Fits.decodeWith (Fits.bytesInt _) decodeUtf16le_short
      unfold TextMessageProtocol.optionSumLen TextMessageProtocol.optionFlagIsOne
      dsimp only
      by_cases h1 : PyEnum.value e = 1
      · rw [decide_eq_true h1]
        cases option_field_len
        · exact Fits.throw
        · exact Fits.pure (by decide) (by decide)
      · rw [decide_eq_false h1]
        exact Fits.pure (by decide) (by decide)
    · refine Fits.bind 0 (ga := fun _ => 0) (Fits.pure (by decide) (by decide)) fun hasopt2 => ?_
      refine Fits.bind 0 (Fits.optionally fun _ => Fits.decodeWith (Hytera.TextMessageProtocol.readOptionField_fits _) decodeUtf16le_short) fun _ => ?_
      refine Fits.pure (by decide) ?_
      have h0 : PyVal.amountAttrs (PyVal.optAttr "_m_option_sum_len"
          (tmdata.map fun _ => .int (match option_field_len with | some n => Int.ofNat n + 2 | none => 0))) = 0 := by
        cases tmdata <;> simp [PyVal.optAttr, PyVal.amountAttrs, PyVal.amount]
      weigh [Hytera.TextMessageProtocol.toPy, h0]

open Dmr.Hytera in
theorem Hytera.LocationProtocol.TriggeredReportAnswer.read_fits :
    Fits 0 0 (Hytera.LocationProtocol.TriggeredReportAnswer.read) (fun x => 8 * PyVal.amount (Hytera.LocationProtocol.TriggeredReportAnswer.toPy x)) 0 := by
  unfold Hytera.LocationProtocol.TriggeredReportAnswer.read
  refine Fits.bind 0 Fits.u4be fun request_id => ?_
  refine Fits.bind 0 (Hytera.RadioIp.read_fits) fun radio_ip => ?_
  refine Fits.bind 0 (Fits.asEnum Fits.u2be) fun result => ?_
  exact Fits.pure (by decide) (by weigh [Hytera.LocationProtocol.TriggeredReportAnswer.toPy])

open Dmr.Hytera in
theorem Hytera.LocationProtocol.EmergencyReportStopRequest.read_fits :
    Fits 0 0 (Hytera.LocationProtocol.EmergencyReportStopRequest.read) (fun x => 8 * PyVal.amount (Hytera.LocationProtocol.EmergencyReportStopRequest.toPy x)) 0 := by
  unfold Hytera.LocationProtocol.EmergencyReportStopRequest.read
  refine Fits.bind 0 Fits.u4be fun request_id => ?_
  refine Fits.bind 0 (Hytera.RadioIp.read_fits) fun radio_ip => ?_
  exact Fits.pure (by decide) (by weigh [Hytera.LocationProtocol.EmergencyReportStopRequest.toPy])

open Dmr.Hytera in
theorem Hytera.Intervalstring.read_fits :
    Fits 0 0 (Hytera.Intervalstring.read) (fun x => 8 * PyVal.amount (Hytera.Intervalstring.toPy x)) 0 := by
  unfold Hytera.Intervalstring.read
  refine Fits.bind 0 (Fits.decodeWith (Fits.bytes _) decodeUtf8_short) fun interval => ?_
  exact Fits.pure (by decide) (by weigh [Hytera.Intervalstring.toPy])

open Dmr.Hytera in
theorem Hytera.LocationProtocol.QuickGpsPayload.read_fits :
    Fits 0 0 (Hytera.LocationProtocol.QuickGpsPayload.read) (fun x => 8 * PyVal.amount (Hytera.LocationProtocol.QuickGpsPayload.toPy x)) 0 := by
  unfold Hytera.LocationProtocol.QuickGpsPayload.read
  refine Fits.bind 0 (Hytera.Datetimestring.read_fits) fun start_time => ?_
  refine Fits.bind 0 (Hytera.Datetimestring.read_fits) fun stop_time => ?_
  refine Fits.bind 0 (Hytera.Intervalstring.read_fits) fun interval => ?_
  refine Fits.bind 0 Fits.u2be fun send_step => ?_
  refine Fits.bind 0 Fits.u1 fun channel_use_percentage => ?_
  refine Fits.bind 0 Fits.u2be fun send_order => ?_
  exact Fits.pure (by decide) (by weigh [Hytera.LocationProtocol.QuickGpsPayload.toPy])

open Dmr.Hytera in
theorem Hytera.LocationProtocol.ConditionQuickGpsRequest.read_fits :
    Fits 0 0 (Hytera.LocationProtocol.ConditionQuickGpsRequest.read) (fun x => 8 * PyVal.amount (Hytera.LocationProtocol.ConditionQuickGpsRequest.toPy x)) 0 := by
  unfold Hytera.LocationProtocol.ConditionQuickGpsRequest.read
  refine Fits.bind 0 Fits.u4be fun request_id => ?_
  refine Fits.bind 0 (Hytera.RadioIp.read_fits) fun radio_ip => ?_
  refine Fits.bind 0 (Fits.asEnum Fits.u1) fun cmd_type => ?_
  refine Fits.bind 0 (Fits.optionally fun _ => (Hytera.LocationProtocol.QuickGpsPayload.read_fits)) fun quick_gps_payload => ?_
  exact Fits.pure (by decide) (by weigh [Hytera.LocationProtocol.ConditionQuickGpsRequest.toPy])

open Dmr.Hytera in
theorem Hytera.LocationProtocol.ConditionReport.read_fits :
    Fits 0 0 (Hytera.LocationProtocol.ConditionReport.read) (fun x => 8 * PyVal.amount (Hytera.LocationProtocol.ConditionReport.toPy x)) 0 := by
  unfold Hytera.LocationProtocol.ConditionReport.read
  refine Fits.bind 0 Fits.u4be fun request_id => ?_
  refine Fits.bind 0 (Hytera.RadioIp.read_fits) fun radio_ip => ?_
  refine Fits.bind 0 (Hytera.Gpsdata.read_fits) fun gpsdata => ?_
  exact Fits.pure (by decide) (by weigh [Hytera.LocationProtocol.ConditionReport.toPy])

open Dmr.Hytera in
theorem Hytera.LocationProtocol.EmergencyReportStopAnswer.read_fits :
    Fits 0 0 (Hytera.LocationProtocol.EmergencyReportStopAnswer.read) (fun x => 8 * PyVal.amount (Hytera.LocationProtocol.EmergencyReportStopAnswer.toPy x)) 0 := by
  unfold Hytera.LocationProtocol.EmergencyReportStopAnswer.read
  refine Fits.bind 0 Fits.u4be fun request_id => ?_
  refine Fits.bind 0 (Hytera.RadioIp.read_fits) fun radio_ip => ?_
  refine Fits.bind 0 (Fits.asEnum Fits.u2be) fun result => ?_
  exact Fits.pure (by decide) (by weigh [Hytera.LocationProtocol.EmergencyReportStopAnswer.toPy])

open Dmr.Hytera in
theorem Hytera.LocationProtocol.ConditionReportAnswer.read_fits :
    Fits 0 0 (Hytera.LocationProtocol.ConditionReportAnswer.read) (fun x => 8 * PyVal.amount (Hytera.LocationProtocol.ConditionReportAnswer.toPy x)) 0 := by
  unfold Hytera.LocationProtocol.ConditionReportAnswer.read
  refine Fits.bind 0 Fits.u4be fun request_id => ?_
  refine Fits.bind 0 (Hytera.RadioIp.read_fits) fun radio_ip => ?_
  refine Fits.bind 0 (Fits.asEnum Fits.u1) fun trigger_type => ?_
  refine Fits.bind 0 (Fits.asEnum Fits.u2be) fun result => ?_
  exact Fits.pure (by decide) (by weigh [Hytera.LocationProtocol.ConditionReportAnswer.toPy])

open Dmr.Hytera in
theorem Hytera.LocationProtocol.StandardAnswer.read_fits :
    Fits 0 0 (Hytera.LocationProtocol.StandardAnswer.read) (fun x => 8 * PyVal.amount (Hytera.LocationProtocol.StandardAnswer.toPy x)) 0 := by
  unfold Hytera.LocationProtocol.StandardAnswer.read
  refine Fits.bind 0 Fits.u4be fun request_id => ?_
  refine Fits.bind 0 (Hytera.RadioIp.read_fits) fun radio_ip => ?_
  refine Fits.bind 0 (Fits.asEnum Fits.u2be) fun result => ?_
  refine Fits.bind 0 (Hytera.Gpsdata.read_fits) fun gpsdata => ?_
  exact Fits.pure (by decide) (by weigh [Hytera.LocationProtocol.StandardAnswer.toPy])

open Dmr.Hytera in
theorem Hytera.LocationProtocol.StandardRequest.read_fits :
    Fits 0 0 (Hytera.LocationProtocol.StandardRequest.read) (fun x => 8 * PyVal.amount (Hytera.LocationProtocol.StandardRequest.toPy x)) 0 := by
  unfold Hytera.LocationProtocol.StandardRequest.read
  refine Fits.bind 0 Fits.u4be fun request_id => ?_
  refine Fits.bind 0 (Hytera.RadioIp.read_fits) fun radio_ip => ?_
  exact Fits.pure (by decide) (by weigh [Hytera.LocationProtocol.StandardRequest.toPy])

open Dmr.Hytera in
theorem Hytera.LocationProtocol.TriggeredReport.read_fits :
    Fits 0 0 (Hytera.LocationProtocol.TriggeredReport.read) (fun x => 8 * PyVal.amount (Hytera.LocationProtocol.TriggeredReport.toPy x)) 0 := by
  unfold Hytera.LocationProtocol.TriggeredReport.read
  refine Fits.bind 0 Fits.u4be fun request_id => ?_
  refine Fits.bind 0 (Hytera.RadioIp.read_fits) fun radio_ip => ?_
  refine Fits.bind 0 (Hytera.Intervalstring.read_fits) fun time_remaining => ?_
  refine Fits.bind 0 (Hytera.Gpsdata.read_fits) fun gpsdata => ?_
  exact Fits.pure (by decide) (by weigh [Hytera.LocationProtocol.TriggeredReport.toPy])

open Dmr.Hytera in
theorem Hytera.LocationProtocol.TriggeredReportStopAnswer.read_fits :
    Fits 0 0 (Hytera.LocationProtocol.TriggeredReportStopAnswer.read) (fun x => 8 * PyVal.amount (Hytera.LocationProtocol.TriggeredReportStopAnswer.toPy x)) 0 := by
  unfold Hytera.LocationProtocol.TriggeredReportStopAnswer.read
  refine Fits.bind 0 Fits.u4be fun request_id => ?_
  refine Fits.bind 0 (Hytera.RadioIp.read_fits) fun radio_ip => ?_
  refine Fits.bind 0 (Fits.asEnum Fits.u2be) fun result => ?_
  exact Fits.pure (by decide) (by weigh [Hytera.LocationProtocol.TriggeredReportStopAnswer.toPy])

open Dmr.Hytera in
theorem Hytera.LocationProtocol.StandardAnswerWithRssi.read_fits :
    Fits 0 0 (Hytera.LocationProtocol.StandardAnswerWithRssi.read) (fun x => 8 * PyVal.amount (Hytera.LocationProtocol.StandardAnswerWithRssi.toPy x)) 0 := by
  unfold Hytera.LocationProtocol.StandardAnswerWithRssi.read
  refine Fits.bind 0 Fits.u4be fun request_id => ?_
  refine Fits.bind 0 (Hytera.RadioIp.read_fits) fun radio_ip => ?_
  refine Fits.bind 0 (Fits.asEnum Fits.u2be) fun result => ?_
  refine Fits.bind 0 (Hytera.Gpsdata.read_fits) fun gpsdata => ?_
  refine Fits.bind 0 Fits.s2be fun rssi_value => ?_
  exact Fits.pure (by decide) (by weigh [Hytera.LocationProtocol.StandardAnswerWithRssi.toPy])

open Dmr.Hytera in
theorem Hytera.LocationProtocol.ConditionReportWithRssi.read_fits :
    Fits 0 0 (Hytera.LocationProtocol.ConditionReportWithRssi.read) (fun x => 8 * PyVal.amount (Hytera.LocationProtocol.ConditionReportWithRssi.toPy x)) 0 := by
  unfold Hytera.LocationProtocol.ConditionReportWithRssi.read
  refine Fits.bind 0 Fits.u4be fun request_id => ?_
  refine Fits.bind 0 (Hytera.RadioIp.read_fits) fun radio_ip => ?_
  refine Fits.bind 0 (Fits.asEnum Fits.u2be) fun result => ?_
  refine Fits.bind 0 (Hytera.Gpsdata.read_fits) fun gpsdata => ?_
  refine Fits.bind 0 Fits.s2be fun rssi_value => ?_
  exact Fits.pure (by decide) (by weigh [Hytera.LocationProtocol.ConditionReportWithRssi.toPy])

open Dmr.Hytera in
theorem Hytera.LocationProtocol.TriggeredReportStopRequest.read_fits :
    Fits 0 0 (Hytera.LocationProtocol.TriggeredReportStopRequest.read) (fun x => 8 * PyVal.amount (Hytera.LocationProtocol.TriggeredReportStopRequest.toPy x)) 0 := by
  unfold Hytera.LocationProtocol.TriggeredReportStopRequest.read
  refine Fits.bind 0 Fits.u4be fun request_id => ?_
  refine Fits.bind 0 (Hytera.RadioIp.read_fits) fun radio_ip => ?_
  exact Fits.pure (by decide) (by weigh [Hytera.LocationProtocol.TriggeredReportStopRequest.toPy])

open Dmr.Hytera in
theorem Hytera.LocationProtocol.EmergencyReport.read_fits :
    Fits 0 0 (Hytera.LocationProtocol.EmergencyReport.read) (fun x => 8 * PyVal.amount (Hytera.LocationProtocol.EmergencyReport.toPy x)) 0 := by
  unfold Hytera.LocationProtocol.EmergencyReport.read
  refine Fits.bind 0 (Hytera.RadioIp.read_fits) fun radio_ip => ?_
  refine Fits.bind 0 Fits.u1 fun emergency_type => ?_
  refine Fits.bind 0 (Hytera.Gpsdata.read_fits) fun gpsdata => ?_
  exact Fits.pure (by decide) (by weigh [Hytera.LocationProtocol.EmergencyReport.toPy])

open Dmr.Hytera in
theorem Hytera.LocationProtocol.ConditionReportRequest.read_fits :
    Fits 0 0 (Hytera.LocationProtocol.ConditionReportRequest.read) (fun x => 8 * PyVal.amount (Hytera.LocationProtocol.ConditionReportRequest.toPy x)) 0 := by
  unfold Hytera.LocationProtocol.ConditionReportRequest.read
  refine Fits.bind 0 Fits.u4be fun request_id => ?_
  refine Fits.bind 0 (Hytera.RadioIp.read_fits) fun radio_ip => ?_
  refine Fits.bind 0 Fits.u1 fun trigger_type => ?_
  refine Fits.bind 0 Fits.u4be fun distance => ?_
  refine Fits.bind 0 (Hytera.Datetimestring.read_fits) fun start_time => ?_
  refine Fits.bind 0 (Hytera.Datetimestring.read_fits) fun stop_time => ?_
  refine Fits.bind 0 (Hytera.Intervalstring.read_fits) fun interval => ?_
  refine Fits.bind 0 (Hytera.Intervalstring.read_fits) fun max_interval => ?_
  exact Fits.pure (by decide) (by weigh [Hytera.LocationProtocol.ConditionReportRequest.toPy])

open Dmr.Hytera in
theorem Hytera.LocationProtocol.TriggeredReportRequest.read_fits :
    Fits 0 0 (Hytera.LocationProtocol.TriggeredReportRequest.read) (fun x => 8 * PyVal.amount (Hytera.LocationProtocol.TriggeredReportRequest.toPy x)) 0 := by
  unfold Hytera.LocationProtocol.TriggeredReportRequest.read
  refine Fits.bind 0 Fits.u4be fun request_id => ?_
  refine Fits.bind 0 (Hytera.RadioIp.read_fits) fun radio_ip => ?_
  refine Fits.bind 0 (Hytera.Datetimestring.read_fits) fun start_time => ?_
  refine Fits.bind 0 (Hytera.Datetimestring.read_fits) fun stop_time => ?_
  refine Fits.bind 0 (Hytera.Intervalstring.read_fits) fun interval => ?_
  exact Fits.pure (by decide) (by weigh [Hytera.LocationProtocol.TriggeredReportRequest.toPy])

open Dmr.Hytera in
theorem Hytera.LocationProtocol.ConditionQuickGpsAnswer.read_fits :
    Fits 0 0 (Hytera.LocationProtocol.ConditionQuickGpsAnswer.read) (fun x => 8 * PyVal.amount (Hytera.LocationProtocol.ConditionQuickGpsAnswer.toPy x)) 0 := by
  unfold Hytera.LocationProtocol.ConditionQuickGpsAnswer.read
  refine Fits.bind 0 Fits.u4be fun request_id => ?_
  refine Fits.bind 0 (Hytera.RadioIp.read_fits) fun radio_ip => ?_
  refine Fits.bind 0 (Fits.asEnum Fits.u1) fun cmd_type => ?_
  refine Fits.bind 0 (Fits.asEnum Fits.u2be) fun result => ?_
  exact Fits.pure (by decide) (by weigh [Hytera.LocationProtocol.ConditionQuickGpsAnswer.toPy])

open Dmr.Hytera in
theorem Hytera.LocationProtocol.readData_fits (on : EnumVal LocationProtocol.LpSpecificTypes) :
    Fits 0 0 (Hytera.LocationProtocol.readData on) (fun x => optW (fun y => 8 * PyVal.amount (Hytera.LocationProtocol.DataUnion.toPy y)) x) 0 := by
  unfold Hytera.LocationProtocol.readData
  refine Fits.ite (fun _ => Fits.map (Hytera.LocationProtocol.TriggeredReportAnswer.read_fits) fun _ => by weigh [Hytera.LocationProtocol.DataUnion.toPy]) fun _ => ?_
  refine Fits.ite (fun _ => Fits.map (Hytera.LocationProtocol.EmergencyReportStopRequest.read_fits) fun _ => by weigh [Hytera.LocationProtocol.DataUnion.toPy]) fun _ => ?_
  refine Fits.ite (fun _ => Fits.map (Hytera.LocationProtocol.ConditionQuickGpsRequest.read_fits) fun _ => by weigh [Hytera.LocationProtocol.DataUnion.toPy]) fun _ => ?_
  refine Fits.ite (fun _ => Fits.map (Hytera.LocationProtocol.ConditionReport.read_fits) fun _ => by weigh [Hytera.LocationProtocol.DataUnion.toPy]) fun _ => ?_
  refine Fits.ite (fun _ => Fits.map (Hytera.LocationProtocol.EmergencyReportStopAnswer.read_fits) fun _ => by weigh [Hytera.LocationProtocol.DataUnion.toPy]) fun _ => ?_
  refine Fits.ite (fun _ => Fits.map (Hytera.LocationProtocol.ConditionReportAnswer.read_fits) fun _ => by weigh [Hytera.LocationProtocol.DataUnion.toPy]) fun _ => ?_
  refine Fits.ite (fun _ => Fits.map (Hytera.LocationProtocol.StandardAnswer.read_fits) fun _ => by weigh [Hytera.LocationProtocol.DataUnion.toPy]) fun _ => ?_
  refine Fits.ite (fun _ => Fits.map (Hytera.LocationProtocol.StandardRequest.read_fits) fun _ => by weigh [Hytera.LocationProtocol.DataUnion.toPy]) fun _ => ?_
  refine Fits.ite (fun _ => Fits.map (Hytera.LocationProtocol.TriggeredReport.read_fits) fun _ => by weigh [Hytera.LocationProtocol.DataUnion.toPy]) fun _ => ?_
  refine Fits.ite (fun _ => Fits.map (Hytera.LocationProtocol.TriggeredReportStopAnswer.read_fits) fun _ => by weigh [Hytera.LocationProtocol.DataUnion.toPy]) fun _ => ?_
  refine Fits.ite (fun _ => Fits.map (Hytera.LocationProtocol.StandardAnswerWithRssi.read_fits) fun _ => by weigh [Hytera.LocationProtocol.DataUnion.toPy]) fun _ => ?_
  refine Fits.ite (fun _ => Fits.map (Hytera.LocationProtocol.ConditionReportWithRssi.read_fits) fun _ => by weigh [Hytera.LocationProtocol.DataUnion.toPy]) fun _ => ?_
  refine Fits.ite (fun _ => Fits.map (Hytera.LocationProtocol.TriggeredReportStopRequest.read_fits) fun _ => by weigh [Hytera.LocationProtocol.DataUnion.toPy]) fun _ => ?_
  refine Fits.ite (fun _ => Fits.map (Hytera.LocationProtocol.EmergencyReport.read_fits) fun _ => by weigh [Hytera.LocationProtocol.DataUnion.toPy]) fun _ => ?_
  refine Fits.ite (fun _ => Fits.map (Hytera.LocationProtocol.ConditionReportRequest.read_fits) fun _ => by weigh [Hytera.LocationProtocol.DataUnion.toPy]) fun _ => ?_
  refine Fits.ite (fun _ => Fits.map (Hytera.LocationProtocol.TriggeredReportRequest.read_fits) fun _ => by weigh [Hytera.LocationProtocol.DataUnion.toPy]) fun _ => ?_
  refine Fits.ite (fun _ => Fits.map (Hytera.LocationProtocol.ConditionQuickGpsAnswer.read_fits) fun _ => by weigh [Hytera.LocationProtocol.DataUnion.toPy]) fun _ => ?_
  exact Fits.pure (by decide) (Nat.zero_le _)

open Dmr.Hytera in
theorem Hytera.LocationProtocol.read_fits :
    Fits 0 0 (Hytera.LocationProtocol.read) (fun x => 8 * PyVal.amount (Hytera.LocationProtocol.toPy x)) 0 := by
  unfold Hytera.LocationProtocol.read
  refine Fits.bind 0 (Fits.asEnum Fits.u2be) fun opcode_header => ?_
  refine Fits.bind 0 Fits.u2be fun message_length => ?_
  refine Fits.bind 0 (Hytera.LocationProtocol.readData_fits _) fun data => ?_
  exact Fits.pure (by decide) (by weigh [Hytera.LocationProtocol.toPy])

open Dmr.Hytera in
theorem Hytera.HyteraDmrApplicationProtocol.readData_fits (on : EnumVal HyteraDmrApplicationProtocol.MessageHeaderTypes) :
    Fits 0 0 (Hytera.HyteraDmrApplicationProtocol.readData on) (fun x => optW (fun y => 8 * PyVal.amount (Hytera.HyteraDmrApplicationProtocol.DataUnion.toPy y)) x) 0 := by
  unfold Hytera.HyteraDmrApplicationProtocol.readData
  refine Fits.ite (fun _ => Fits.map (Hytera.RadioRegistrationService.read_fits) fun _ => by weigh [Hytera.HyteraDmrApplicationProtocol.DataUnion.toPy]) fun _ => ?_
  refine Fits.ite (fun _ => Fits.map (Hytera.TelemetryProtocol.read_fits) fun _ => by weigh [Hytera.HyteraDmrApplicationProtocol.DataUnion.toPy]) fun _ => ?_
  refine Fits.ite (fun _ => Fits.map (Hytera.RadioControlProtocol.read_fits) fun _ => by weigh [Hytera.HyteraDmrApplicationProtocol.DataUnion.toPy]) fun _ => ?_
  refine Fits.ite (fun _ => Fits.map (Hytera.TextMessageProtocol.read_fits) fun _ => by weigh [Hytera.HyteraDmrApplicationProtocol.DataUnion.toPy]) fun _ => ?_
  refine Fits.ite (fun _ => Fits.map (Hytera.DataDeliveryStates.read_fits) fun _ => by weigh [Hytera.HyteraDmrApplicationProtocol.DataUnion.toPy]) fun _ => ?_
  refine Fits.ite (fun _ => Fits.map (Hytera.LocationProtocol.read_fits) fun _ => by weigh [Hytera.HyteraDmrApplicationProtocol.DataUnion.toPy]) fun _ => ?_
  refine Fits.ite (fun _ => Fits.map (Hytera.DataTransmitProtocol.read_fits) fun _ => by weigh [Hytera.HyteraDmrApplicationProtocol.DataUnion.toPy]) fun _ => ?_
  exact Fits.pure (by decide) (Nat.zero_le _)

open Dmr.Hytera in
theorem Hytera.HyteraDmrApplicationProtocol.read_fits :
    Fits 0 0 (Hytera.HyteraDmrApplicationProtocol.read) (fun x => 8 + 8 * PyVal.amount (Hytera.HyteraDmrApplicationProtocol.toPy x)) 0 := by
  unfold Hytera.HyteraDmrApplicationProtocol.read
  refine Fits.bind 1 (Fits.flag (by decide)) fun is_reliable_message => ?_
  refine Fits.bind 0 (Fits.asEnum (Fits.bits 7 (by decide))) fun message_header => ?_
  refine Fits.align ?_
  refine Fits.bind 0 (Hytera.HyteraDmrApplicationProtocol.readData_fits _) fun data => ?_
  refine Fits.bind 0 Fits.u1 fun checksum => ?_
  refine Fits.bind 0 (Fits.bytes _) fun message_footer => ?_
  refine Fits.validate ?_
  exact Fits.pure (by decide) (by weigh [Hytera.HyteraDmrApplicationProtocol.toPy])

open Dmr.Hytera in
theorem Hytera.HyteraRadioNetworkProtocol.read_fits :
    Fits 0 0 (Hytera.HyteraRadioNetworkProtocol.read) (fun x => 8 * PyVal.amount (Hytera.HyteraRadioNetworkProtocol.toPy x)) 0 := by
  unfold Hytera.HyteraRadioNetworkProtocol.read
  refine Fits.bind 0 (Fits.bytes _) fun header_identifier => ?_
  refine Fits.validate ?_
  refine Fits.bind 0 Fits.u1 fun version => ?_
  refine Fits.bind 0 Fits.u1 fun block => ?_
  refine Fits.bind 0 (Fits.asEnum Fits.u1) fun opcode => ?_
  refine Fits.bind 0 Fits.u1 fun source_id => ?_
  refine Fits.bind 0 Fits.u1 fun destination_id => ?_
  refine Fits.bind 0 Fits.u2be fun packet_number => ?_
  refine Fits.bind 0 Fits.u2be fun hrnp_packet_length => ?_
  refine Fits.bind 0 Fits.u2be fun checksum => ?_
  refine Fits.bind 0 (Fits.optionally fun _ => Fits.weaken (Hytera.HyteraDmrApplicationProtocol.read_fits) (Nat.le_refl _) fun _ => Nat.le_add_left _ 8) fun data => ?_
  exact Fits.pure (by decide) (by weigh [Hytera.HyteraRadioNetworkProtocol.toPy])

open Dmr.Hytera in
theorem Hytera.HyteraSimpleTransportReliabilityProtocol.Option.read_fits :
    Fits 0 0 (Hytera.HyteraSimpleTransportReliabilityProtocol.Option.read) (fun x => 8 + 8 * PyVal.amount (Hytera.HyteraSimpleTransportReliabilityProtocol.Option.toPy x)) 0 := by
  unfold Hytera.HyteraSimpleTransportReliabilityProtocol.Option.read
  refine Fits.bind 1 (Fits.flag (by decide)) fun expect_more_options => ?_
  refine Fits.bind 0 (Fits.asEnum (Fits.bits 7 (by decide))) fun command => ?_
  refine Fits.align ?_
  refine Fits.bind 0 Fits.u1 fun len_option_payload => ?_
  refine Fits.bind 0 (Fits.bytes _) fun option_payload => ?_
  exact Fits.pure (by decide) (by weigh [Hytera.HyteraSimpleTransportReliabilityProtocol.Option.toPy])

open Dmr.Hytera in
theorem Hytera.HyteraSimpleTransportReliabilityProtocol.read_fits :
    Fits 0 0 (Hytera.HyteraSimpleTransportReliabilityProtocol.read) (fun x => 8 * PyVal.amount (Hytera.HyteraSimpleTransportReliabilityProtocol.toPy x)) 0 := by
  unfold Hytera.HyteraSimpleTransportReliabilityProtocol.read
  refine Fits.bind 0 (Fits.bytes _) fun header => ?_
  refine Fits.validate ?_
  refine Fits.bind 0 Fits.u1 fun version => ?_
  refine Fits.bind 2 (Fits.bits 2 (by decide)) fun reserved => ?_
  refine Fits.bind 3 (Fits.flag (by decide)) fun has_option => ?_
  refine Fits.bind 4 (Fits.flag (by decide)) fun is_reject => ?_
  refine Fits.bind 5 (Fits.flag (by decide)) fun is_close => ?_
  refine Fits.bind 6 (Fits.flag (by decide)) fun is_connect => ?_
  refine Fits.bind 7 (Fits.flag (by decide)) fun is_heartbeat => ?_
  refine Fits.bind 0 (Fits.flag (by decide)) fun is_ack => ?_
  refine Fits.align ?_
  refine Fits.bind 0 Fits.u2be fun sequence_number => ?_
  refine Fits.isEof fun eof1 => ?_
  refine Fits.loopFuel fun fuel => ?_
  refine Fits.bind 0 (Fits.optionally fun _ => (Fits.repeatUntil (Hytera.HyteraSimpleTransportReliabilityProtocol.Option.read_fits) (Fits.stop_pure _) _)) fun options => ?_
  refine Fits.isEof fun eof2 => ?_
  refine Fits.loopFuel fun fuel => ?_
  refine Fits.bind 0 (Fits.optionally fun _ => (Fits.repeatEos (Hytera.HyteraDmrApplicationProtocol.read_fits) _)) fun data => ?_
  refine Fits.isEof fun eof3 => ?_
  refine Fits.bind 0 (Fits.optionally fun _ => Fits.full) fun extra_data => ?_
  exact Fits.pure (by decide) (by weigh [Hytera.HyteraSimpleTransportReliabilityProtocol.toPy])

open Dmr.Hytera in
theorem Hytera.IpSiteConnectHeartbeat.Keepalive.read_fits :
    Fits 0 0 (Hytera.IpSiteConnectHeartbeat.Keepalive.read) (fun x => 8 * PyVal.amount (Hytera.IpSiteConnectHeartbeat.Keepalive.toPy x)) 0 := by
  unfold Hytera.IpSiteConnectHeartbeat.Keepalive.read
  refine Fits.bind 0 (Fits.bytes _) fun nullbyte => ?_
  refine Fits.validate ?_
  exact Fits.pure (by decide) (by weigh [Hytera.IpSiteConnectHeartbeat.Keepalive.toPy])

open Dmr.Hytera in
theorem Hytera.IpSiteConnectHeartbeat.PingPong.read_fits :
    Fits 0 0 (Hytera.IpSiteConnectHeartbeat.PingPong.read) (fun x => 8 * PyVal.amount (Hytera.IpSiteConnectHeartbeat.PingPong.toPy x)) 0 := by
  unfold Hytera.IpSiteConnectHeartbeat.PingPong.read
  refine Fits.bind 0 (Fits.bytes _) fun header => ?_
  refine Fits.validate ?_
  refine Fits.bind 0 (Fits.bytes _) fun heartbeat_identitier => ?_
  refine Fits.validate ?_
  refine Fits.bind 0 (Fits.bytes _) fun nullbytes => ?_
  refine Fits.validate ?_
  refine Fits.bind 0 Fits.u1 fun heartbeat_seq => ?_
  refine Fits.bind 0 (Fits.bytes _) fun tail => ?_
  refine Fits.validate ?_
  exact Fits.pure (by decide) (by weigh [Hytera.IpSiteConnectHeartbeat.PingPong.toPy])

open Dmr.Hytera in
theorem Hytera.IpSiteConnectHeartbeat.Unknown.read_fits :
    Fits 0 0 (Hytera.IpSiteConnectHeartbeat.Unknown.read) (fun x => 8 * PyVal.amount (Hytera.IpSiteConnectHeartbeat.Unknown.toPy x)) 0 := by
  unfold Hytera.IpSiteConnectHeartbeat.Unknown.read
  refine Fits.bind 0 Fits.full fun data => ?_
  exact Fits.pure (by decide) (by weigh [Hytera.IpSiteConnectHeartbeat.Unknown.toPy])

open Dmr.Hytera in
theorem Hytera.IpSiteConnectHeartbeat.readData_fits (on : Nat) :
    Fits 0 0 (Hytera.IpSiteConnectHeartbeat.readData on) (fun x => 8 * PyVal.amount (Hytera.IpSiteConnectHeartbeat.DataUnion.toPy x)) 0 := by
  unfold Hytera.IpSiteConnectHeartbeat.readData
  refine Fits.ite (fun _ => Fits.map (Hytera.IpSiteConnectHeartbeat.Keepalive.read_fits) fun _ => by weigh [Hytera.IpSiteConnectHeartbeat.DataUnion.toPy]) fun _ => ?_
  refine Fits.ite (fun _ => Fits.map (Hytera.IpSiteConnectHeartbeat.PingPong.read_fits) fun _ => by weigh [Hytera.IpSiteConnectHeartbeat.DataUnion.toPy]) fun _ => ?_
  exact Fits.map (Hytera.IpSiteConnectHeartbeat.Unknown.read_fits) fun _ => by weigh [Hytera.IpSiteConnectHeartbeat.DataUnion.toPy]

open Dmr.Hytera in
theorem Hytera.IpSiteConnectHeartbeat.read_fits :
    Fits 0 0 (Hytera.IpSiteConnectHeartbeat.read) (fun x => 8 * PyVal.amount (Hytera.IpSiteConnectHeartbeat.toPy x)) 0 := by
  unfold Hytera.IpSiteConnectHeartbeat.read
  refine Fits.peek Silent.size fun n => ?_
  refine Fits.bind 0 (ga := fun x => 8 * PyVal.amount (Hytera.IpSiteConnectHeartbeat.DataUnion.toPy x)) ?_
    fun _ => Fits.pure (by decide) (by weigh [Hytera.IpSiteConnectHeartbeat.toPy])
  unfold IpSiteConnectHeartbeat.readData
  repeat' split
  · exact Fits.map Hytera.IpSiteConnectHeartbeat.Keepalive.read_fits fun _ => by weigh [Hytera.IpSiteConnectHeartbeat.DataUnion.toPy]
  · exact Fits.map Hytera.IpSiteConnectHeartbeat.PingPong.read_fits fun _ => by weigh [Hytera.IpSiteConnectHeartbeat.DataUnion.toPy]
  · exact Fits.map Hytera.IpSiteConnectHeartbeat.Unknown.read_fits fun _ => by weigh [Hytera.IpSiteConnectHeartbeat.DataUnion.toPy]

open Dmr.Hytera in
theorem Hytera.IpSiteConnectProtocol.read_fits :
    Fits 0 0 (Hytera.IpSiteConnectProtocol.read) (fun x => 8 * PyVal.amount (Hytera.IpSiteConnectProtocol.toPy x)) 0 := by
  unfold Hytera.IpSiteConnectProtocol.read
  refine Fits.bind 0 (Fits.bytes _) fun source_port => ?_
  refine Fits.bind 0 (Fits.bytes _) fun fixed_header => ?_
  refine Fits.validate ?_
  refine Fits.bind 0 Fits.u1 fun sequence_number => ?_
  refine Fits.bind 0 (Fits.bytes _) fun reserved_3 => ?_
  refine Fits.bind 0 (Fits.asEnum Fits.u1) fun packet_type => ?_
  refine Fits.bind 0 (Fits.bytes _) fun reserved_7a => ?_
  refine Fits.bind 0 (Fits.asEnum Fits.u2be) fun timeslot_raw => ?_
  refine Fits.bind 0 (Fits.asEnum Fits.u2be) fun slot_type => ?_
  refine Fits.bind 0 Fits.u2le fun color_code_raw => ?_
  refine Fits.bind 0 (Fits.asEnum Fits.u2be) fun frame_type => ?_
  refine Fits.bind 0 (Fits.bytes _) fun reserved_2a => ?_
  refine Fits.bind 0 (Fits.bytes _) fun ipsc_payload => ?_
  refine Fits.bind 0 (Fits.bytes _) fun reserved_2b => ?_
  refine Fits.bind 0 (Fits.asEnum Fits.u1) fun call_type => ?_
  refine Fits.bind 0 Fits.u4le fun destination_radio_id_raw => ?_
  refine Fits.bind 0 Fits.u4le fun source_radio_id_raw => ?_
  refine Fits.bind 0 Fits.u1 fun reserved_1b => ?_
  refine Fits.isEof fun eof1 => ?_
  refine Fits.bind 0 (Fits.optionally fun _ => Fits.full) fun extra_data => ?_
  exact Fits.pure (by decide) (by weigh [Hytera.IpSiteConnectProtocol.toPy])

open Dmr.Hytera in
theorem Hytera.RadioId.read_fits :
    Fits 0 0 (Hytera.RadioId.read) (fun x => 8 * PyVal.amount (Hytera.RadioId.toPy x)) 0 := by
  unfold Hytera.RadioId.read
  refine Fits.bind 0 Fits.u4le fun radio_id_raw => ?_
  exact Fits.pure (by decide) (by weigh [Hytera.RadioId.toPy])

open Dmr.Hytera in
theorem Hytera.RealTimeTransportProtocol.FixedHeader.read_fits :
    Fits 0 0 (Hytera.RealTimeTransportProtocol.FixedHeader.read) (fun x => 8 * PyVal.amount (Hytera.RealTimeTransportProtocol.FixedHeader.toPy x)) 0 := by
  unfold Hytera.RealTimeTransportProtocol.FixedHeader.read
  refine Fits.bind 2 (Fits.bits 2 (by decide)) fun version => ?_
  refine Fits.validate ?_
  refine Fits.bind 3 (Fits.flag (by decide)) fun padding => ?_
  refine Fits.bind 4 (Fits.flag (by decide)) fun extension => ?_
  refine Fits.bind 0 (Fits.bits 4 (by decide)) fun num_csrc => ?_
  refine Fits.bind 1 (Fits.flag (by decide)) fun marker => ?_
  refine Fits.bind 0 (Fits.bits 7 (by decide)) fun payload_type => ?_
  refine Fits.align ?_
  refine Fits.bind 0 Fits.u2be fun sequence_number => ?_
  refine Fits.bind 0 Fits.u4be fun timestamp => ?_
  refine Fits.bind 0 Fits.u4be fun ssrc => ?_
  refine Fits.bind 0 (Fits.repeatN (Fits.item Fits.u4be (by decide)) _) fun csrc => ?_
  exact Fits.pure (by decide) (by weigh [Hytera.RealTimeTransportProtocol.FixedHeader.toPy])

open Dmr.Hytera in
theorem Hytera.RealTimeTransportProtocol.HeaderExtension.read_fits :
    Fits 0 0 (Hytera.RealTimeTransportProtocol.HeaderExtension.read) (fun x => 8 * PyVal.amount (Hytera.RealTimeTransportProtocol.HeaderExtension.toPy x)) 0 := by
  unfold Hytera.RealTimeTransportProtocol.HeaderExtension.read
  refine Fits.bind 0 Fits.u2be fun header_identifier => ?_
  refine Fits.bind 0 Fits.u2be fun length => ?_
  refine Fits.bind 7 (Fits.bits 7 (by decide)) fun slot => ?_
  refine Fits.bind 0 (Fits.flag (by decide)) fun last_flag => ?_
  refine Fits.align ?_
  refine Fits.bind 0 (Hytera.RadioId.read_fits) fun source_id => ?_
  refine Fits.bind 0 (Hytera.RadioId.read_fits) fun destination_id => ?_
  refine Fits.bind 0 (Fits.asEnum Fits.u1) fun call_type => ?_
  refine Fits.bind 0 (Fits.bytes _) fun reserved => ?_
  exact Fits.pure (by decide) (by weigh [Hytera.RealTimeTransportProtocol.HeaderExtension.toPy])

open Dmr.Hytera in
theorem Hytera.RealTimeTransportProtocol.read_fits :
    Fits 0 0 (Hytera.RealTimeTransportProtocol.read) (fun x => 8 * PyVal.amount (Hytera.RealTimeTransportProtocol.toPy x)) 0 := by
  unfold Hytera.RealTimeTransportProtocol.read
  refine Fits.bind 0 Hytera.RealTimeTransportProtocol.FixedHeader.read_fits fun fixed_header => ?_
  refine Fits.bind 0 (Fits.optionally fun _ => Hytera.RealTimeTransportProtocol.HeaderExtension.read_fits) fun _ => ?_
  refine Fits.peek Silent.size fun n => ?_
  refine Fits.peek Silent.pos fun q => ?_
  have hs : Silent (RealTimeTransportProtocol.lenPadding fixed_header) := by
    unfold RealTimeTransportProtocol.lenPadding RealTimeTransportProtocol.lenPaddingIfExists
    split
    · refine Silent.bind (Silent.optionally ?_) fun _ => Silent.pure _
      intro b q a s hq e
      rw [eval_bind, eval_posIo, andThen_ok, eval_bind, eval_sizeIo, andThen_ok] at e
      refine Silent.peek (b.length - 1) Bytewise.u1 b q a s hq ?_
      rw [eval_bind, eval_posIo, andThen_ok]
      exact e
    · exact Silent.pure _
  refine Fits.peek hs fun len => ?_
  refine Fits.bind 0 (Fits.bytesInt _) fun _ => ?_
  refine Fits.bind 0 (Fits.optionally fun _ => Fits.bytes _) fun _ => ?_
  refine Fits.pure (by decide) ?_
  have h0 : PyVal.amountAttrs (PyVal.optAttr "_m_len_padding_if_exists"
      (if fixed_header.padding then some (.int (Int.ofNat len)) else none)) = 0 := by split <;> rfl
  weigh [Hytera.RealTimeTransportProtocol.toPy, h0]

open Dmr.Motorola in
theorem Motorola.AutomaticRegistrationService.MessageHeaderBits.read_fits :
    Fits 0 0 (Motorola.AutomaticRegistrationService.MessageHeaderBits.read) (fun x => 8 * PyVal.amount (Motorola.AutomaticRegistrationService.MessageHeaderBits.toPy x)) 0 := by
  unfold Motorola.AutomaticRegistrationService.MessageHeaderBits.read
  refine Fits.bind 1 (Fits.flag (by decide)) fun extension_bit => ?_
  refine Fits.bind 2 (Fits.flag (by decide)) fun acknowledgement_bit => ?_
  refine Fits.bind 3 (Fits.flag (by decide)) fun priority => ?_
  refine Fits.bind 4 (Fits.flag (by decide)) fun control_user_bit => ?_
  refine Fits.bind 0 (Fits.bits 4 (by decide)) fun pdu_type => ?_
  exact Fits.pure (by decide) (by weigh [Motorola.AutomaticRegistrationService.MessageHeaderBits.toPy])

open Dmr.Motorola in
theorem Motorola.AutomaticRegistrationService.DeviceRegistrationAcknowledgementHeader.read_fits :
    Fits 0 0 (Motorola.AutomaticRegistrationService.DeviceRegistrationAcknowledgementHeader.read) (fun x => 8 * PyVal.amount (Motorola.AutomaticRegistrationService.DeviceRegistrationAcknowledgementHeader.toPy x)) 0 := by
  unfold Motorola.AutomaticRegistrationService.DeviceRegistrationAcknowledgementHeader.read
  refine Fits.bind 1 (Fits.flag (by decide)) fun extension_bit => ?_
  refine Fits.bind 0 (Fits.bits 7 (by decide)) fun refresh_time => ?_
  exact Fits.pure (by decide) (by weigh [Motorola.AutomaticRegistrationService.DeviceRegistrationAcknowledgementHeader.toPy])

open Dmr.Motorola in
theorem Motorola.AutomaticRegistrationService.DeviceRegistrationAcknowledgementFailureReason.read_fits :
    Fits 0 0 (Motorola.AutomaticRegistrationService.DeviceRegistrationAcknowledgementFailureReason.read) (fun x => 8 * PyVal.amount (Motorola.AutomaticRegistrationService.DeviceRegistrationAcknowledgementFailureReason.toPy x)) 0 := by
  unfold Motorola.AutomaticRegistrationService.DeviceRegistrationAcknowledgementFailureReason.read
  refine Fits.bind 1 (Fits.flag (by decide)) fun extension_bit => ?_
  refine Fits.bind 0 (Fits.asEnum (Fits.bits 7 (by decide))) fun failure_reason => ?_
  exact Fits.pure (by decide) (by weigh [Motorola.AutomaticRegistrationService.DeviceRegistrationAcknowledgementFailureReason.toPy])

open Dmr.Motorola in
theorem Motorola.AutomaticRegistrationService.AcknowledgementMessage.read_fits (root_message_header : AutomaticRegistrationService.MessageHeaderBits) :
    Fits 0 0 (Motorola.AutomaticRegistrationService.AcknowledgementMessage.read root_message_header) (fun x => 8 * PyVal.amount (Motorola.AutomaticRegistrationService.AcknowledgementMessage.toPy x)) 0 := by
  unfold Motorola.AutomaticRegistrationService.AcknowledgementMessage.read
  refine Fits.bind 0 (Fits.optionally fun _ => (Motorola.AutomaticRegistrationService.DeviceRegistrationAcknowledgementHeader.read_fits)) fun device_registration_acknowledgement_header => ?_
  refine Fits.bind 0 (Fits.optionally fun _ => (Motorola.AutomaticRegistrationService.DeviceRegistrationAcknowledgementFailureReason.read_fits)) fun device_registration_acknowledgement_failure_reason => ?_
  exact Fits.pure (by decide) (by weigh [Motorola.AutomaticRegistrationService.AcknowledgementMessage.toPy])

open Dmr.Motorola in
theorem Motorola.AutomaticRegistrationService.DeviceRegistrationMessageHeader.read_fits :
    Fits 0 0 (Motorola.AutomaticRegistrationService.DeviceRegistrationMessageHeader.read) (fun x => 8 * PyVal.amount (Motorola.AutomaticRegistrationService.DeviceRegistrationMessageHeader.toPy x)) 0 := by
  unfold Motorola.AutomaticRegistrationService.DeviceRegistrationMessageHeader.read
  refine Fits.bind 1 (Fits.flag (by decide)) fun extension_bit => ?_
  refine Fits.bind 3 (Fits.asEnum (Fits.bits 2 (by decide))) fun event => ?_
  refine Fits.bind 0 (Fits.bits 5 (by decide)) fun encoding => ?_
  exact Fits.pure (by decide) (by weigh [Motorola.AutomaticRegistrationService.DeviceRegistrationMessageHeader.toPy])

open Dmr.Motorola in
theorem Motorola.AutomaticRegistrationService.DeviceDeregistrationMessage.read_fits :
    Fits 0 0 (Motorola.AutomaticRegistrationService.DeviceDeregistrationMessage.read) (fun x => 8 * PyVal.amount (Motorola.AutomaticRegistrationService.DeviceDeregistrationMessage.toPy x)) 0 := by
  unfold Motorola.AutomaticRegistrationService.DeviceDeregistrationMessage.read
  exact Fits.pure (by decide) (by weigh [Motorola.AutomaticRegistrationService.DeviceDeregistrationMessage.toPy])

open Dmr.Motorola in
theorem Motorola.AutomaticRegistrationService.DeviceRegistrationMessage.read_fits (root_message_header : AutomaticRegistrationService.MessageHeaderBits) :
    Fits 0 0 (Motorola.AutomaticRegistrationService.DeviceRegistrationMessage.read root_message_header) (fun x => 8 * PyVal.amount (Motorola.AutomaticRegistrationService.DeviceRegistrationMessage.toPy x)) 0 := by
  unfold Motorola.AutomaticRegistrationService.DeviceRegistrationMessage.read
  refine Fits.bind 0 (Fits.optionally fun _ => (Motorola.AutomaticRegistrationService.DeviceRegistrationMessageHeader.read_fits)) fun device_registration_message_header => ?_
  refine Fits.bind 0 Fits.u1 fun len_device_identifier => ?_
  refine Fits.bind 0 (Fits.optionally fun _ => (Fits.bytes _)) fun device_identifier => ?_
  refine Fits.bind 0 Fits.u1 fun len_user_identifier => ?_
  refine Fits.bind 0 (Fits.optionally fun _ => (Fits.bytes _)) fun user_identifier => ?_
  refine Fits.bind 0 Fits.u1 fun len_password => ?_
  refine Fits.bind 0 (Fits.optionally fun _ => (Fits.bytes _)) fun password => ?_
  exact Fits.pure (by decide) (by weigh [Motorola.AutomaticRegistrationService.DeviceRegistrationMessage.toPy])

open Dmr.Motorola in
theorem Motorola.AutomaticRegistrationService.ArsQueryMessage.read_fits :
    Fits 0 0 (Motorola.AutomaticRegistrationService.ArsQueryMessage.read) (fun x => 8 * PyVal.amount (Motorola.AutomaticRegistrationService.ArsQueryMessage.toPy x)) 0 := by
  unfold Motorola.AutomaticRegistrationService.ArsQueryMessage.read
  exact Fits.pure (by decide) (by weigh [Motorola.AutomaticRegistrationService.ArsQueryMessage.toPy])

open Dmr.Motorola in
theorem Motorola.AutomaticRegistrationService.readPduContent_fits (on : Nat) (message_header : AutomaticRegistrationService.MessageHeaderBits) :
    Fits 0 0 (Motorola.AutomaticRegistrationService.readPduContent on message_header) (fun x => optW (fun y => 8 * PyVal.amount (Motorola.AutomaticRegistrationService.PduContentUnion.toPy y)) x) 0 := by
  unfold Motorola.AutomaticRegistrationService.readPduContent
  refine Fits.ite (fun _ => Fits.map (Motorola.AutomaticRegistrationService.DeviceRegistrationMessage.read_fits _) fun _ => by weigh [Motorola.AutomaticRegistrationService.PduContentUnion.toPy]) fun _ => ?_
  refine Fits.ite (fun _ => Fits.map (Motorola.AutomaticRegistrationService.DeviceDeregistrationMessage.read_fits) fun _ => by weigh [Motorola.AutomaticRegistrationService.PduContentUnion.toPy]) fun _ => ?_
  refine Fits.ite (fun _ => Fits.map (Motorola.AutomaticRegistrationService.ArsQueryMessage.read_fits) fun _ => by weigh [Motorola.AutomaticRegistrationService.PduContentUnion.toPy]) fun _ => ?_
  refine Fits.ite (fun _ => Fits.map (Motorola.AutomaticRegistrationService.AcknowledgementMessage.read_fits _) fun _ => by weigh [Motorola.AutomaticRegistrationService.PduContentUnion.toPy]) fun _ => ?_
  exact Fits.pure (by decide) (Nat.zero_le _)

open Dmr.Motorola in
theorem Motorola.AutomaticRegistrationService.read_fits :
    Fits 0 0 (Motorola.AutomaticRegistrationService.read) (fun x => 8 * PyVal.amount (Motorola.AutomaticRegistrationService.toPy x)) 0 := by
  unfold Motorola.AutomaticRegistrationService.read
  refine Fits.bind 0 Fits.u2le fun message_size => ?_
  refine Fits.bind 0 (Motorola.AutomaticRegistrationService.MessageHeaderBits.read_fits) fun message_header => ?_
  refine Fits.bind 0 (Motorola.AutomaticRegistrationService.readPduContent_fits _ _) fun pdu_content => ?_
  refine Fits.bind 0 Fits.full fun unparsed_data => ?_
  exact Fits.pure (by decide) (by weigh [Motorola.AutomaticRegistrationService.toPy])

open Dmr.Motorola in
theorem Motorola.MotorolaBinaryXml.OpaqueElementValue.read_fits :
    Fits 0 0 (Motorola.MotorolaBinaryXml.OpaqueElementValue.read) (fun x => 8 * PyVal.amount (Motorola.MotorolaBinaryXml.OpaqueElementValue.toPy x)) 0 := by
  unfold Motorola.MotorolaBinaryXml.OpaqueElementValue.read
  refine Fits.bind 0 Fits.u1 fun len_value => ?_
  refine Fits.bind 0 (Fits.bytes _) fun value => ?_
  exact Fits.pure (by decide) (by weigh [Motorola.MotorolaBinaryXml.OpaqueElementValue.toPy])

open Dmr.Motorola in
theorem Motorola.MotorolaBinaryXml.Opaque1byteValue.read_fits :
    Fits 0 0 (Motorola.MotorolaBinaryXml.Opaque1byteValue.read) (fun x => 8 * PyVal.amount (Motorola.MotorolaBinaryXml.Opaque1byteValue.toPy x)) 0 := by
  unfold Motorola.MotorolaBinaryXml.Opaque1byteValue.read
  refine Fits.bind 0 (Fits.bytes _) fun value => ?_
  exact Fits.pure (by decide) (by weigh [Motorola.MotorolaBinaryXml.Opaque1byteValue.toPy])

open Dmr.Motorola in
theorem Motorola.MotorolaBinaryXml.Uintvar.read_fits :
    Fits 0 0 (Motorola.MotorolaBinaryXml.Uintvar.read) (fun x => 8 * PyVal.amount (Motorola.MotorolaBinaryXml.Uintvar.toPy x)) 0 := by
  unfold Motorola.MotorolaBinaryXml.Uintvar.read
  refine Fits.loopFuel fun fuel => ?_
  refine Fits.bind 0 (Fits.repeatUntil (Fits.item Fits.u1 (by decide)) (Fits.stop_eof (fun x eof1 => (decide ((x &&& 128) = 0)) || eof1)) _) fun payload => ?_
  exact Fits.pure (by decide) (by weigh [Motorola.MotorolaBinaryXml.Uintvar.toPy])

open Dmr.Motorola in
theorem Motorola.MotorolaBinaryXml.ConstantDataTableReference.read_fits :
    Fits 0 0 (Motorola.MotorolaBinaryXml.ConstantDataTableReference.read) (fun x => 8 * PyVal.amount (Motorola.MotorolaBinaryXml.ConstantDataTableReference.toPy x)) 0 := by
  unfold Motorola.MotorolaBinaryXml.ConstantDataTableReference.read
  refine Fits.bind 0 (Motorola.MotorolaBinaryXml.Uintvar.read_fits) fun byte_offset_from_cdt_start => ?_
  exact Fits.pure (by decide) (by weigh [Motorola.MotorolaBinaryXml.ConstantDataTableReference.toPy])

open Dmr.Motorola in
theorem Motorola.MotorolaBinaryXml.LrrpElement.readLrrpElementData_fits (on : EnumVal MotorolaBinaryXml.LrrpElements) :
    Fits 0 0 (Motorola.MotorolaBinaryXml.LrrpElement.readLrrpElementData on) (fun x => optW (fun y => 8 * PyVal.amount (Motorola.MotorolaBinaryXml.LrrpElement.LrrpElementDataUnion.toPy y)) x) 0 := by
  unfold Motorola.MotorolaBinaryXml.LrrpElement.readLrrpElementData
  refine Fits.ite (fun _ => Fits.map (Motorola.MotorolaBinaryXml.OpaqueElementValue.read_fits) fun _ => by weigh [Motorola.MotorolaBinaryXml.LrrpElement.LrrpElementDataUnion.toPy]) fun _ => ?_
  refine Fits.ite (fun _ => Fits.map (Motorola.MotorolaBinaryXml.Opaque1byteValue.read_fits) fun _ => by weigh [Motorola.MotorolaBinaryXml.LrrpElement.LrrpElementDataUnion.toPy]) fun _ => ?_
  refine Fits.ite (fun _ => Fits.map (Motorola.MotorolaBinaryXml.ConstantDataTableReference.read_fits) fun _ => by weigh [Motorola.MotorolaBinaryXml.LrrpElement.LrrpElementDataUnion.toPy]) fun _ => ?_
  exact Fits.pure (by decide) (Nat.zero_le _)

open Dmr.Motorola in
theorem Motorola.MotorolaBinaryXml.LrrpElement.read_fits :
    Fits 0 0 (Motorola.MotorolaBinaryXml.LrrpElement.read) (fun x => 8 * PyVal.amount (Motorola.MotorolaBinaryXml.LrrpElement.toPy x)) 0 := by
  unfold Motorola.MotorolaBinaryXml.LrrpElement.read
  refine Fits.bind 0 (Fits.asEnum Fits.u1) fun lrrp_element_type => ?_
  refine Fits.bind 0 (Motorola.MotorolaBinaryXml.LrrpElement.readLrrpElementData_fits _) fun lrrp_element_data => ?_
  exact Fits.pure (by decide) (by weigh [Motorola.MotorolaBinaryXml.LrrpElement.toPy])

open Dmr.Motorola in
theorem Motorola.MotorolaBinaryXml.LrrpImmediateRequestNcdt.read_fits :
    Fits 0 0 (Motorola.MotorolaBinaryXml.LrrpImmediateRequestNcdt.read) (fun x => 8 * PyVal.amount (Motorola.MotorolaBinaryXml.LrrpImmediateRequestNcdt.toPy x)) 0 := by
  unfold Motorola.MotorolaBinaryXml.LrrpImmediateRequestNcdt.read
  refine Fits.bind 0 (Motorola.MotorolaBinaryXml.LrrpElement.read_fits) fun elements => ?_
  exact Fits.pure (by decide) (by weigh [Motorola.MotorolaBinaryXml.LrrpImmediateRequestNcdt.toPy])

open Dmr.Motorola in
theorem Motorola.MotorolaBinaryXml.Opaque3byteValue.read_fits :
    Fits 0 0 (Motorola.MotorolaBinaryXml.Opaque3byteValue.read) (fun x => 8 * PyVal.amount (Motorola.MotorolaBinaryXml.Opaque3byteValue.toPy x)) 0 := by
  unfold Motorola.MotorolaBinaryXml.Opaque3byteValue.read
  refine Fits.bind 0 (Fits.bytes _) fun value => ?_
  exact Fits.pure (by decide) (by weigh [Motorola.MotorolaBinaryXml.Opaque3byteValue.toPy])

open Dmr.Motorola in
theorem Motorola.MotorolaBinaryXml.Sintvar.read_fits :
    Fits 0 0 (Motorola.MotorolaBinaryXml.Sintvar.read) (fun x => 8 * PyVal.amount (Motorola.MotorolaBinaryXml.Sintvar.toPy x)) 0 := by
  unfold Motorola.MotorolaBinaryXml.Sintvar.read
  refine Fits.loopFuel fun fuel => ?_
  refine Fits.bind 0 (Fits.repeatUntil (Fits.item Fits.u1 (by decide)) (Fits.stop_eof (fun x eof1 => (decide ((x &&& 128) = 0)) || eof1)) _) fun payload => ?_
  exact Fits.pure (by decide) (by weigh [Motorola.MotorolaBinaryXml.Sintvar.toPy])

open Dmr.Motorola in
theorem Motorola.MotorolaBinaryXml.Sfloatvar.read_fits :
    Fits 0 0 (Motorola.MotorolaBinaryXml.Sfloatvar.read) (fun x => 8 * PyVal.amount (Motorola.MotorolaBinaryXml.Sfloatvar.toPy x)) 0 := by
  unfold Motorola.MotorolaBinaryXml.Sfloatvar.read
  refine Fits.bind 0 (Motorola.MotorolaBinaryXml.Sintvar.read_fits) fun sint_payload => ?_
  refine Fits.bind 0 (Motorola.MotorolaBinaryXml.Uintvar.read_fits) fun fraction_payload => ?_
  exact Fits.pure (by decide) (by weigh [Motorola.MotorolaBinaryXml.Sfloatvar.toPy])

open Dmr.Motorola in
theorem Motorola.MotorolaBinaryXml.Opaque5byteValue.read_fits :
    Fits 0 0 (Motorola.MotorolaBinaryXml.Opaque5byteValue.read) (fun x => 8 * PyVal.amount (Motorola.MotorolaBinaryXml.Opaque5byteValue.toPy x)) 0 := by
  unfold Motorola.MotorolaBinaryXml.Opaque5byteValue.read
  refine Fits.bind 0 (Fits.bytes _) fun value => ?_
  exact Fits.pure (by decide) (by weigh [Motorola.MotorolaBinaryXml.Opaque5byteValue.toPy])

open Dmr.Motorola in
theorem Motorola.MotorolaBinaryXml.Ufloatvar.read_fits :
    Fits 0 0 (Motorola.MotorolaBinaryXml.Ufloatvar.read) (fun x => 8 * PyVal.amount (Motorola.MotorolaBinaryXml.Ufloatvar.toPy x)) 0 := by
  unfold Motorola.MotorolaBinaryXml.Ufloatvar.read
  refine Fits.bind 0 (Motorola.MotorolaBinaryXml.Uintvar.read_fits) fun uint_payload => ?_
  refine Fits.bind 0 (Motorola.MotorolaBinaryXml.Uintvar.read_fits) fun fraction_payload => ?_
  exact Fits.pure (by decide) (by weigh [Motorola.MotorolaBinaryXml.Ufloatvar.toPy])

open Dmr.Motorola in
theorem Motorola.MotorolaBinaryXml.MbxmlDocument.readDocumentData_fits (on : EnumVal MotorolaBinaryXml.Docids) :
    Fits 0 0 (Motorola.MotorolaBinaryXml.MbxmlDocument.readDocumentData on) (fun x => optW (fun y => 8 * PyVal.amount (Motorola.MotorolaBinaryXml.MbxmlDocument.DocumentDataUnion.toPy y)) x) 0 := by
  unfold Motorola.MotorolaBinaryXml.MbxmlDocument.readDocumentData
  refine Fits.ite (fun _ => Fits.map (Motorola.MotorolaBinaryXml.LrrpImmediateRequestNcdt.read_fits) fun _ => by weigh [Motorola.MotorolaBinaryXml.MbxmlDocument.DocumentDataUnion.toPy]) fun _ => ?_
  exact Fits.pure (by decide) (Nat.zero_le _)

open Dmr.Motorola in
theorem Motorola.MotorolaBinaryXml.MbxmlDocument.read_fits :
    Fits 0 0 (Motorola.MotorolaBinaryXml.MbxmlDocument.read) (fun x => 8 + 8 * PyVal.amount (Motorola.MotorolaBinaryXml.MbxmlDocument.toPy x)) 0 := by
  unfold Motorola.MotorolaBinaryXml.MbxmlDocument.read
  refine Fits.bind 0 (Fits.asEnum Fits.u1) fun document_id => ?_
  refine Fits.bind 0 (Motorola.MotorolaBinaryXml.Uintvar.read_fits) fun num_document_bytes => ?_
  refine Fits.bind 0 (Motorola.MotorolaBinaryXml.MbxmlDocument.readDocumentData_fits _) fun document_data => ?_
  exact Fits.pure (by decide) (by weigh [Motorola.MotorolaBinaryXml.MbxmlDocument.toPy])

open Dmr.Motorola in
theorem Motorola.MotorolaBinaryXml.Opaque2byteValue.read_fits :
    Fits 0 0 (Motorola.MotorolaBinaryXml.Opaque2byteValue.read) (fun x => 8 * PyVal.amount (Motorola.MotorolaBinaryXml.Opaque2byteValue.toPy x)) 0 := by
  unfold Motorola.MotorolaBinaryXml.Opaque2byteValue.read
  refine Fits.bind 0 (Fits.bytes _) fun value => ?_
  exact Fits.pure (by decide) (by weigh [Motorola.MotorolaBinaryXml.Opaque2byteValue.toPy])

open Dmr.Motorola in
theorem Motorola.MotorolaBinaryXml.Opaque4byteValue.read_fits :
    Fits 0 0 (Motorola.MotorolaBinaryXml.Opaque4byteValue.read) (fun x => 8 * PyVal.amount (Motorola.MotorolaBinaryXml.Opaque4byteValue.toPy x)) 0 := by
  unfold Motorola.MotorolaBinaryXml.Opaque4byteValue.read
  refine Fits.bind 0 (Fits.bytes _) fun value => ?_
  exact Fits.pure (by decide) (by weigh [Motorola.MotorolaBinaryXml.Opaque4byteValue.toPy])

open Dmr.Motorola in
theorem Motorola.MotorolaBinaryXml.read_fits :
    Fits 0 0 (Motorola.MotorolaBinaryXml.read) (fun x => 8 * PyVal.amount (Motorola.MotorolaBinaryXml.toPy x)) 0 := by
  unfold Motorola.MotorolaBinaryXml.read
  refine Fits.loopFuel fun fuel => ?_
  refine Fits.bind 0 (Fits.repeatUntil (Motorola.MotorolaBinaryXml.MbxmlDocument.read_fits) (Fits.stop_eof (fun _ eof1 => !eof1)) _) fun documents => ?_
  exact Fits.pure (by decide) (by weigh [Motorola.MotorolaBinaryXml.toPy])

open Dmr.Motorola in
theorem Motorola.TextMessageProtocol.MessageHeaderBits.read_fits :
    Fits 0 0 (Motorola.TextMessageProtocol.MessageHeaderBits.read) (fun x => 8 * PyVal.amount (Motorola.TextMessageProtocol.MessageHeaderBits.toPy x)) 0 := by
  unfold Motorola.TextMessageProtocol.MessageHeaderBits.read
  refine Fits.bind 1 (Fits.flag (by decide)) fun extension_bit => ?_
  refine Fits.bind 2 (Fits.flag (by decide)) fun acknowledgement_required => ?_
  refine Fits.bind 3 (Fits.flag (by decide)) fun reserved => ?_
  refine Fits.bind 4 (Fits.flag (by decide)) fun control_user_bit => ?_
  refine Fits.bind 0 (Fits.bits 4 (by decide)) fun pdu_type => ?_
  exact Fits.pure (by decide) (by weigh [Motorola.TextMessageProtocol.MessageHeaderBits.toPy])

open Dmr.Motorola in
theorem Motorola.TextMessageProtocol.TextMessageHeaderSequenceAndEncoding.read_fits :
    Fits 0 0 (Motorola.TextMessageProtocol.TextMessageHeaderSequenceAndEncoding.read) (fun x => 8 * PyVal.amount (Motorola.TextMessageProtocol.TextMessageHeaderSequenceAndEncoding.toPy x)) 8 := by
  unfold Motorola.TextMessageProtocol.TextMessageHeaderSequenceAndEncoding.read
  refine Fits.bind 1 (Fits.flag (by decide)) fun has_encoding_header => ?_
  refine Fits.bind 3 (Fits.bits 2 (by decide)) fun reserved_1 => ?_
  refine Fits.bind 0 (Fits.bits 5 (by decide)) fun sequence_number_lsb_bits => ?_
  refine Fits.bind 8 (Fits.optAny fun _ => (Fits.flag (by decide))) fun header_encoding_extension => ?_
  refine Fits.bind 8 (Fits.optAny fun _ => (Fits.bits 2 (by decide))) fun sequence_number_msb_bits => ?_
  refine Fits.bind 8 (Fits.bits 5 (by decide)) fun encoding => ?_
  exact Fits.pure (.inr (by decide)) (by weigh [Motorola.TextMessageProtocol.TextMessageHeaderSequenceAndEncoding.toPy])

open Dmr.Motorola in
theorem Motorola.TextMessageProtocol.TextMessage.read_fits (root_message_header : TextMessageProtocol.MessageHeaderBits) :
    Fits 0 0 (Motorola.TextMessageProtocol.TextMessage.read root_message_header) (fun x => 8 * PyVal.amount (Motorola.TextMessageProtocol.TextMessage.toPy x)) 0 := by
  unfold Motorola.TextMessageProtocol.TextMessage.read
  refine Fits.bind 8 (Fits.optAny fun _ => (Motorola.TextMessageProtocol.TextMessageHeaderSequenceAndEncoding.read_fits)) fun text_message_header_sequence_and_encoding => ?_
  refine Fits.bind 0 (Fits.decodeWith Fits.full decodeUtf16le_short) fun text_message => ?_
  exact Fits.pure (by decide) (by weigh [Motorola.TextMessageProtocol.TextMessage.toPy])

open Dmr.Motorola in
theorem Motorola.TextMessageProtocol.TmsServiceAvailabilityHeader.read_fits :
    Fits 0 0 (Motorola.TextMessageProtocol.TmsServiceAvailabilityHeader.read) (fun x => 8 * PyVal.amount (Motorola.TextMessageProtocol.TmsServiceAvailabilityHeader.toPy x)) 0 := by
  unfold Motorola.TextMessageProtocol.TmsServiceAvailabilityHeader.read
  refine Fits.bind 1 (Fits.flag (by decide)) fun extension_bit => ?_
  refine Fits.bind 5 (Fits.bits 4 (by decide)) fun reserved => ?_
  refine Fits.bind 0 (Fits.asEnum (Fits.bits 3 (by decide))) fun device => ?_
  exact Fits.pure (by decide) (by weigh [Motorola.TextMessageProtocol.TmsServiceAvailabilityHeader.toPy])

open Dmr.Motorola in
theorem Motorola.TextMessageProtocol.TmsServiceAvailability.read_fits (root_message_header : TextMessageProtocol.MessageHeaderBits) :
    Fits 0 0 (Motorola.TextMessageProtocol.TmsServiceAvailability.read root_message_header) (fun x => 8 * PyVal.amount (Motorola.TextMessageProtocol.TmsServiceAvailability.toPy x)) 0 := by
  unfold Motorola.TextMessageProtocol.TmsServiceAvailability.read
  refine Fits.bind 0 (Fits.optionally fun _ => (Motorola.TextMessageProtocol.TmsServiceAvailabilityHeader.read_fits)) fun header => ?_
  exact Fits.pure (by decide) (by weigh [Motorola.TextMessageProtocol.TmsServiceAvailability.toPy])

open Dmr.Motorola in
theorem Motorola.TextMessageProtocol.TmsAcknowledgementHeaderSequenceNumber.read_fits :
    Fits 0 0 (Motorola.TextMessageProtocol.TmsAcknowledgementHeaderSequenceNumber.read) (fun x => 8 * PyVal.amount (Motorola.TextMessageProtocol.TmsAcknowledgementHeaderSequenceNumber.toPy x)) 0 := by
  unfold Motorola.TextMessageProtocol.TmsAcknowledgementHeaderSequenceNumber.read
  refine Fits.bind 1 (Fits.flag (by decide)) fun has_msb_header => ?_
  refine Fits.bind 3 (Fits.bits 2 (by decide)) fun _ => ?_
  refine Fits.bind 0 (Fits.bits 5 (by decide)) fun _ => ?_
  cases has_msb_header
  · exact Fits.pure (by decide) (by weigh [Motorola.TextMessageProtocol.TmsAcknowledgementHeaderSequenceNumber.toPy])
  · refine Fits.bind 1 (Fits.optTrue (Fits.flag (by decide))) fun _ => ?_
    refine Fits.bind 3 (Fits.optTrue (Fits.bits 2 (by decide))) fun _ => ?_
    refine Fits.bind 0 (Fits.optTrue (Fits.bits 5 (by decide))) fun _ => ?_
    exact Fits.pure (by decide) (by weigh [Motorola.TextMessageProtocol.TmsAcknowledgementHeaderSequenceNumber.toPy])

open Dmr.Motorola in
theorem Motorola.TextMessageProtocol.TmsAcknowledgement.read_fits (root_message_header : TextMessageProtocol.MessageHeaderBits) :
    Fits 0 0 (Motorola.TextMessageProtocol.TmsAcknowledgement.read root_message_header) (fun x => 8 * PyVal.amount (Motorola.TextMessageProtocol.TmsAcknowledgement.toPy x)) 0 := by
  unfold Motorola.TextMessageProtocol.TmsAcknowledgement.read
  refine Fits.bind 0 (Fits.optionally fun _ => (Motorola.TextMessageProtocol.TmsAcknowledgementHeaderSequenceNumber.read_fits)) fun tms_acknowledgement_header_sequence_number => ?_
  exact Fits.pure (by decide) (by weigh [Motorola.TextMessageProtocol.TmsAcknowledgement.toPy])

open Dmr.Motorola in
theorem Motorola.TextMessageProtocol.TmsServiceAvailabilityAcknowledgement.read_fits :
    Fits 0 0 (Motorola.TextMessageProtocol.TmsServiceAvailabilityAcknowledgement.read) (fun x => 8 * PyVal.amount (Motorola.TextMessageProtocol.TmsServiceAvailabilityAcknowledgement.toPy x)) 0 := by
  unfold Motorola.TextMessageProtocol.TmsServiceAvailabilityAcknowledgement.read
  exact Fits.pure (by decide) (by weigh [Motorola.TextMessageProtocol.TmsServiceAvailabilityAcknowledgement.toPy])

open Dmr.Motorola in
theorem Motorola.TextMessageProtocol.readPduContent_fits (on : Nat) (message_header : TextMessageProtocol.MessageHeaderBits) :
    Fits 0 0 (Motorola.TextMessageProtocol.readPduContent on message_header) (fun x => optW (fun y => 8 * PyVal.amount (Motorola.TextMessageProtocol.PduContentUnion.toPy y)) x) 0 := by
  unfold Motorola.TextMessageProtocol.readPduContent
  refine Fits.ite (fun _ => Fits.map (Motorola.TextMessageProtocol.TmsServiceAvailability.read_fits _) fun _ => by weigh [Motorola.TextMessageProtocol.PduContentUnion.toPy]) fun _ => ?_
  refine Fits.ite (fun _ => Fits.map (Motorola.TextMessageProtocol.TmsAcknowledgement.read_fits _) fun _ => by weigh [Motorola.TextMessageProtocol.PduContentUnion.toPy]) fun _ => ?_
  refine Fits.ite (fun _ => Fits.map (Motorola.TextMessageProtocol.TextMessage.read_fits _) fun _ => by weigh [Motorola.TextMessageProtocol.PduContentUnion.toPy]) fun _ => ?_
  refine Fits.ite (fun _ => Fits.map (Motorola.TextMessageProtocol.TextMessage.read_fits _) fun _ => by weigh [Motorola.TextMessageProtocol.PduContentUnion.toPy]) fun _ => ?_
  exact Fits.pure (by decide) (Nat.zero_le _)

open Dmr.Motorola in
theorem Motorola.TextMessageProtocol.read_fits :
    Fits 0 0 (Motorola.TextMessageProtocol.read) (fun x => 8 * PyVal.amount (Motorola.TextMessageProtocol.toPy x)) 0 := by
  unfold Motorola.TextMessageProtocol.read
  refine Fits.bind 0 Fits.u2be fun message_size => ?_
  refine Fits.bind 0 (Motorola.TextMessageProtocol.MessageHeaderBits.read_fits) fun message_header => ?_
  refine Fits.bind 0 Fits.u1 fun len_address => ?_
  refine Fits.bind 0 (Fits.optionally fun _ => (Fits.bytes _)) fun address => ?_
  refine Fits.bind 0 (Motorola.TextMessageProtocol.readPduContent_fits _ _) fun pdu_content => ?_
  refine Fits.bind 0 Fits.full fun unparsed_data => ?_
  exact Fits.pure (by decide) (by weigh [Motorola.TextMessageProtocol.toPy])

/-- A class with its decoder and the Python object it builds. -/
structure ObjectDecoder where
  name : String
  Obj : Type
  read : Rd Obj
  view : Obj → PyVal

/-- Every class of the library that can be decoded on its own. -/
def objectDecoders : List ObjectDecoder := [
  ⟨"Etsi.DmrCsbk.NegativeAckResponseData", _, Etsi.DmrCsbk.NegativeAckResponseData.read, Etsi.DmrCsbk.NegativeAckResponseData.toPy⟩,
  ⟨"Etsi.DmrCsbk.ServiceOptions", _, Etsi.DmrCsbk.ServiceOptions.read, Etsi.DmrCsbk.ServiceOptions.toPy⟩,
  ⟨"Etsi.DmrCsbk.UnitToUnitVoiceRequestData", _, Etsi.DmrCsbk.UnitToUnitVoiceRequestData.read, Etsi.DmrCsbk.UnitToUnitVoiceRequestData.toPy⟩,
  ⟨"Etsi.DmrCsbk.PreambleData", _, Etsi.DmrCsbk.PreambleData.read, Etsi.DmrCsbk.PreambleData.toPy⟩,
  ⟨"Etsi.DmrCsbk.ChannelTimingData", _, Etsi.DmrCsbk.ChannelTimingData.read, Etsi.DmrCsbk.ChannelTimingData.toPy⟩,
  ⟨"Etsi.DmrCsbk.BsOutboundActivationData", _, Etsi.DmrCsbk.BsOutboundActivationData.read, Etsi.DmrCsbk.BsOutboundActivationData.toPy⟩,
  ⟨"Etsi.DmrCsbk.UnitToUnitVoiceAnswerData", _, Etsi.DmrCsbk.UnitToUnitVoiceAnswerData.read, Etsi.DmrCsbk.UnitToUnitVoiceAnswerData.toPy⟩,
  ⟨"Etsi.DmrCsbk", _, Etsi.DmrCsbk.read, Etsi.DmrCsbk.toPy⟩,
  ⟨"Etsi.DmrData.Rate1LastBlockUnconfirmed", _, Etsi.DmrData.Rate1LastBlockUnconfirmed.read, Etsi.DmrData.Rate1LastBlockUnconfirmed.toPy⟩,
  ⟨"Etsi.DmrData.Rate12LastBlockConfirmed", _, Etsi.DmrData.Rate12LastBlockConfirmed.read, Etsi.DmrData.Rate12LastBlockConfirmed.toPy⟩,
  ⟨"Etsi.DmrData.Rate12Confirmed", _, Etsi.DmrData.Rate12Confirmed.read, Etsi.DmrData.Rate12Confirmed.toPy⟩,
  ⟨"Etsi.DmrData.Rate34LastBlockUnconfirmed", _, Etsi.DmrData.Rate34LastBlockUnconfirmed.read, Etsi.DmrData.Rate34LastBlockUnconfirmed.toPy⟩,
  ⟨"Etsi.DmrData.Rate1LastBlockConfirmed", _, Etsi.DmrData.Rate1LastBlockConfirmed.read, Etsi.DmrData.Rate1LastBlockConfirmed.toPy⟩,
  ⟨"Etsi.DmrData.Rate1Unconfirmed", _, Etsi.DmrData.Rate1Unconfirmed.read, Etsi.DmrData.Rate1Unconfirmed.toPy⟩,
  ⟨"Etsi.DmrData.UdtLastBlock", _, Etsi.DmrData.UdtLastBlock.read, Etsi.DmrData.UdtLastBlock.toPy⟩,
  ⟨"Etsi.DmrData.Rate34Confirmed", _, Etsi.DmrData.Rate34Confirmed.read, Etsi.DmrData.Rate34Confirmed.toPy⟩,
  ⟨"Etsi.DmrData.Rate34LastBlockConfirmed", _, Etsi.DmrData.Rate34LastBlockConfirmed.read, Etsi.DmrData.Rate34LastBlockConfirmed.toPy⟩,
  ⟨"Etsi.DmrData.Rate34Unconfirmed", _, Etsi.DmrData.Rate34Unconfirmed.read, Etsi.DmrData.Rate34Unconfirmed.toPy⟩,
  ⟨"Etsi.DmrData.Rate12LastBlockUnconfirmed", _, Etsi.DmrData.Rate12LastBlockUnconfirmed.read, Etsi.DmrData.Rate12LastBlockUnconfirmed.toPy⟩,
  ⟨"Etsi.DmrData.Rate1Confirmed", _, Etsi.DmrData.Rate1Confirmed.read, Etsi.DmrData.Rate1Confirmed.toPy⟩,
  ⟨"Etsi.DmrData.Rate12Unconfirmed", _, Etsi.DmrData.Rate12Unconfirmed.read, Etsi.DmrData.Rate12Unconfirmed.toPy⟩,
  ⟨"Etsi.DmrData", _, Etsi.DmrData.read, Etsi.DmrData.toPy⟩,
  ⟨"Etsi.DmrDataHeader.DataHeaderShortRaw", _, Etsi.DmrDataHeader.DataHeaderShortRaw.read, Etsi.DmrDataHeader.DataHeaderShortRaw.toPy⟩,
  ⟨"Etsi.DmrDataHeader.DataHeaderProprietary", _, Etsi.DmrDataHeader.DataHeaderProprietary.read, Etsi.DmrDataHeader.DataHeaderProprietary.toPy⟩,
  ⟨"Etsi.DmrDataHeader.DataHeaderUndefined", _, Etsi.DmrDataHeader.DataHeaderUndefined.read, Etsi.DmrDataHeader.DataHeaderUndefined.toPy⟩,
  ⟨"Etsi.DmrDataHeader.DataHeaderShortStatusPrecoded", _, Etsi.DmrDataHeader.DataHeaderShortStatusPrecoded.read, Etsi.DmrDataHeader.DataHeaderShortStatusPrecoded.toPy⟩,
  ⟨"Etsi.DmrDataHeader.DataHeaderResponse", _, Etsi.DmrDataHeader.DataHeaderResponse.read, Etsi.DmrDataHeader.DataHeaderResponse.toPy⟩,
  ⟨"Etsi.DmrDataHeader.DataHeaderConfirmed", _, Etsi.DmrDataHeader.DataHeaderConfirmed.read, Etsi.DmrDataHeader.DataHeaderConfirmed.toPy⟩,
  ⟨"Etsi.DmrDataHeader.DataHeaderUnconfirmed", _, Etsi.DmrDataHeader.DataHeaderUnconfirmed.read, Etsi.DmrDataHeader.DataHeaderUnconfirmed.toPy⟩,
  ⟨"Etsi.DmrDataHeader.DataHeaderShortDefined", _, Etsi.DmrDataHeader.DataHeaderShortDefined.read, Etsi.DmrDataHeader.DataHeaderShortDefined.toPy⟩,
  ⟨"Etsi.DmrDataHeader.DataHeaderUdt", _, Etsi.DmrDataHeader.DataHeaderUdt.read, Etsi.DmrDataHeader.DataHeaderUdt.toPy⟩,
  ⟨"Etsi.DmrDataHeader", _, Etsi.DmrDataHeader.read, Etsi.DmrDataHeader.toPy⟩,
  ⟨"Etsi.DmrIpUdp.UdpIpv4CompressedHeader", _, Etsi.DmrIpUdp.UdpIpv4CompressedHeader.read, Etsi.DmrIpUdp.UdpIpv4CompressedHeader.toPy⟩,
  ⟨"Etsi.DmrIpUdp", _, Etsi.DmrIpUdp.read, Etsi.DmrIpUdp.toPy⟩,
  ⟨"Etsi.FullLinkControl.GpsInfoLcPdu", _, Etsi.FullLinkControl.GpsInfoLcPdu.read, Etsi.FullLinkControl.GpsInfoLcPdu.toPy⟩,
  ⟨"Etsi.FullLinkControl.GroupVoiceChannelUser", _, Etsi.FullLinkControl.GroupVoiceChannelUser.read, Etsi.FullLinkControl.GroupVoiceChannelUser.toPy⟩,
  ⟨"Etsi.FullLinkControl.UnitToUnitVoiceChannelUser", _, Etsi.FullLinkControl.UnitToUnitVoiceChannelUser.read, Etsi.FullLinkControl.UnitToUnitVoiceChannelUser.toPy⟩,
  ⟨"Etsi.FullLinkControl.TalkerAliasHeader", _, Etsi.FullLinkControl.TalkerAliasHeader.read, Etsi.FullLinkControl.TalkerAliasHeader.toPy⟩,
  ⟨"Etsi.FullLinkControl.TalkerAliasContinuation", _, Etsi.FullLinkControl.TalkerAliasContinuation.read, Etsi.FullLinkControl.TalkerAliasContinuation.toPy⟩,
  ⟨"Etsi.FullLinkControl", _, Etsi.FullLinkControl.read, Etsi.FullLinkControl.toPy⟩,
  ⟨"Homebrew.Homebrew2015.TypeMasterPing", _, Homebrew.Homebrew2015.TypeMasterPing.read, Homebrew.Homebrew2015.TypeMasterPing.toPy⟩,
  ⟨"Homebrew.Homebrew2015.TypeRepeaterPong", _, Homebrew.Homebrew2015.TypeRepeaterPong.read, Homebrew.Homebrew2015.TypeRepeaterPong.toPy⟩,
  ⟨"Homebrew.Homebrew2015.TypeRepeaterClosing", _, Homebrew.Homebrew2015.TypeRepeaterClosing.read, Homebrew.Homebrew2015.TypeRepeaterClosing.toPy⟩,
  ⟨"Homebrew.Homebrew2015.TypeRepeaterConfiguration", _, Homebrew.Homebrew2015.TypeRepeaterConfiguration.read, Homebrew.Homebrew2015.TypeRepeaterConfiguration.toPy⟩,
  ⟨"Homebrew.Homebrew2015.TypeRepeaterLoginResponse", _, Homebrew.Homebrew2015.TypeRepeaterLoginResponse.read, Homebrew.Homebrew2015.TypeRepeaterLoginResponse.toPy⟩,
  ⟨"Homebrew.Homebrew2015.TypeRepeaterLoginRequest", _, Homebrew.Homebrew2015.TypeRepeaterLoginRequest.read, Homebrew.Homebrew2015.TypeRepeaterLoginRequest.toPy⟩,
  ⟨"Homebrew.Homebrew2015.TypeMasterNotAccept", _, Homebrew.Homebrew2015.TypeMasterNotAccept.read, Homebrew.Homebrew2015.TypeMasterNotAccept.toPy⟩,
  ⟨"Homebrew.Homebrew2015.TypeMasterRepeaterAck", _, Homebrew.Homebrew2015.TypeMasterRepeaterAck.read, Homebrew.Homebrew2015.TypeMasterRepeaterAck.toPy⟩,
  ⟨"Homebrew.Homebrew2015.TypeMasterClosing", _, Homebrew.Homebrew2015.TypeMasterClosing.read, Homebrew.Homebrew2015.TypeMasterClosing.toPy⟩,
  ⟨"Homebrew.Homebrew2015.TypeDmrData", _, Homebrew.Homebrew2015.TypeDmrData.read, Homebrew.Homebrew2015.TypeDmrData.toPy⟩,
  ⟨"Homebrew.Homebrew2015.TypeRepeaterOptions", _, Homebrew.Homebrew2015.TypeRepeaterOptions.read, Homebrew.Homebrew2015.TypeRepeaterOptions.toPy⟩,
  ⟨"Homebrew.Homebrew2015", _, Homebrew.Homebrew2015.read, Homebrew.Homebrew2015.toPy⟩,
  ⟨"Homebrew.Mmdvm2020.TypeMasterPong", _, Homebrew.Mmdvm2020.TypeMasterPong.read, Homebrew.Mmdvm2020.TypeMasterPong.toPy⟩,
  ⟨"Homebrew.Mmdvm2020.TypeRadioPosition", _, Homebrew.Mmdvm2020.TypeRadioPosition.read, Homebrew.Mmdvm2020.TypeRadioPosition.toPy⟩,
  ⟨"Homebrew.Mmdvm2020.TypeTalkerAlias", _, Homebrew.Mmdvm2020.TypeTalkerAlias.read, Homebrew.Mmdvm2020.TypeTalkerAlias.toPy⟩,
  ⟨"Homebrew.Mmdvm2020.TypeRepeaterClosing", _, Homebrew.Mmdvm2020.TypeRepeaterClosing.read, Homebrew.Mmdvm2020.TypeRepeaterClosing.toPy⟩,
  ⟨"Homebrew.Mmdvm2020.TypeRepeaterConfiguration", _, Homebrew.Mmdvm2020.TypeRepeaterConfiguration.read, Homebrew.Mmdvm2020.TypeRepeaterConfiguration.toPy⟩,
  ⟨"Homebrew.Mmdvm2020.TypeRepeaterLoginResponse", _, Homebrew.Mmdvm2020.TypeRepeaterLoginResponse.read, Homebrew.Mmdvm2020.TypeRepeaterLoginResponse.toPy⟩,
  ⟨"Homebrew.Mmdvm2020.TypeRepeaterLoginRequest", _, Homebrew.Mmdvm2020.TypeRepeaterLoginRequest.read, Homebrew.Mmdvm2020.TypeRepeaterLoginRequest.toPy⟩,
  ⟨"Homebrew.Mmdvm2020.TypeMasterNotAccept", _, Homebrew.Mmdvm2020.TypeMasterNotAccept.read, Homebrew.Mmdvm2020.TypeMasterNotAccept.toPy⟩,
  ⟨"Homebrew.Mmdvm2020.TypeUnknown", _, Homebrew.Mmdvm2020.TypeUnknown.read, Homebrew.Mmdvm2020.TypeUnknown.toPy⟩,
  ⟨"Homebrew.Mmdvm2020.TypeMasterRepeaterAck", _, Homebrew.Mmdvm2020.TypeMasterRepeaterAck.read, Homebrew.Mmdvm2020.TypeMasterRepeaterAck.toPy⟩,
  ⟨"Homebrew.Mmdvm2020.TypeMasterClosing", _, Homebrew.Mmdvm2020.TypeMasterClosing.read, Homebrew.Mmdvm2020.TypeMasterClosing.toPy⟩,
  ⟨"Homebrew.Mmdvm2020.TypeDmrData", _, Homebrew.Mmdvm2020.TypeDmrData.read, Homebrew.Mmdvm2020.TypeDmrData.toPy⟩,
  ⟨"Homebrew.Mmdvm2020.TypeRepeaterBeacon", _, Homebrew.Mmdvm2020.TypeRepeaterBeacon.read, Homebrew.Mmdvm2020.TypeRepeaterBeacon.toPy⟩,
  ⟨"Homebrew.Mmdvm2020.TypeRepeaterOptions", _, Homebrew.Mmdvm2020.TypeRepeaterOptions.read, Homebrew.Mmdvm2020.TypeRepeaterOptions.toPy⟩,
  ⟨"Homebrew.Mmdvm2020.TypeRepeaterPing", _, Homebrew.Mmdvm2020.TypeRepeaterPing.read, Homebrew.Mmdvm2020.TypeRepeaterPing.toPy⟩,
  ⟨"Homebrew.Mmdvm2020", _, Homebrew.Mmdvm2020.read, Homebrew.Mmdvm2020.toPy⟩,
  ⟨"Hytera.RadioIp", _, Hytera.RadioIp.read, Hytera.RadioIp.toPy⟩,
  ⟨"Hytera.DataDeliveryStates", _, Hytera.DataDeliveryStates.read, Hytera.DataDeliveryStates.toPy⟩,
  ⟨"Hytera.DataTransmitProtocol.LastDataSlice", _, Hytera.DataTransmitProtocol.LastDataSlice.read, Hytera.DataTransmitProtocol.LastDataSlice.toPy⟩,
  ⟨"Hytera.DataTransmitProtocol.DataSliceAnswer", _, Hytera.DataTransmitProtocol.DataSliceAnswer.read, Hytera.DataTransmitProtocol.DataSliceAnswer.toPy⟩,
  ⟨"Hytera.DataTransmitProtocol.LastDataSliceAnswer", _, Hytera.DataTransmitProtocol.LastDataSliceAnswer.read, Hytera.DataTransmitProtocol.LastDataSliceAnswer.toPy⟩,
  ⟨"Hytera.DataTransmitProtocol.DtpAnswer", _, Hytera.DataTransmitProtocol.DtpAnswer.read, Hytera.DataTransmitProtocol.DtpAnswer.toPy⟩,
  ⟨"Hytera.DataTransmitProtocol", _, Hytera.DataTransmitProtocol.read, Hytera.DataTransmitProtocol.toPy⟩,
  ⟨"Hytera.Datetimestring", _, Hytera.Datetimestring.read, Hytera.Datetimestring.toPy⟩,
  ⟨"Hytera.Gpsdata", _, Hytera.Gpsdata.read, Hytera.Gpsdata.toPy⟩,
  ⟨"Hytera.HyteraDmrApplicationProtocol.UndefinedProtocol", _, Hytera.HyteraDmrApplicationProtocol.UndefinedProtocol.read, Hytera.HyteraDmrApplicationProtocol.UndefinedProtocol.toPy⟩,
  ⟨"Hytera.RadioRegistrationService", _, Hytera.RadioRegistrationService.read, Hytera.RadioRegistrationService.toPy⟩,
  ⟨"Hytera.TelemetryProtocol.StandardStatusRequest", _, Hytera.TelemetryProtocol.StandardStatusRequest.read, Hytera.TelemetryProtocol.StandardStatusRequest.toPy⟩,
  ⟨"Hytera.TelemetryProtocol.RemoteControlAnswer", _, Hytera.TelemetryProtocol.RemoteControlAnswer.read, Hytera.TelemetryProtocol.RemoteControlAnswer.toPy⟩,
  ⟨"Hytera.TelemetryProtocol.VioExtendedStatus", _, Hytera.TelemetryProtocol.VioExtendedStatus.read, Hytera.TelemetryProtocol.VioExtendedStatus.toPy⟩,
  ⟨"Hytera.TelemetryProtocol.ExtendedStatusReport", _, Hytera.TelemetryProtocol.ExtendedStatusReport.read, Hytera.TelemetryProtocol.ExtendedStatusReport.toPy⟩,
  ⟨"Hytera.TelemetryProtocol.RemoteControlRequest", _, Hytera.TelemetryProtocol.RemoteControlRequest.read, Hytera.TelemetryProtocol.RemoteControlRequest.toPy⟩,
  ⟨"Hytera.TelemetryProtocol.StandardStatusReport", _, Hytera.TelemetryProtocol.StandardStatusReport.read, Hytera.TelemetryProtocol.StandardStatusReport.toPy⟩,
  ⟨"Hytera.TelemetryProtocol", _, Hytera.TelemetryProtocol.read, Hytera.TelemetryProtocol.toPy⟩,
  ⟨"Hytera.RadioControlProtocol.CallReply", _, Hytera.RadioControlProtocol.CallReply.read, Hytera.RadioControlProtocol.CallReply.toPy⟩,
  ⟨"Hytera.RadioControlProtocol.BroadcastConfiguration", _, Hytera.RadioControlProtocol.BroadcastConfiguration.read, Hytera.RadioControlProtocol.BroadcastConfiguration.toPy⟩,
  ⟨"Hytera.RadioControlProtocol.BroadcastStatusConfigurationRequest", _, Hytera.RadioControlProtocol.BroadcastStatusConfigurationRequest.read, Hytera.RadioControlProtocol.BroadcastStatusConfigurationRequest.toPy⟩,
  ⟨"Hytera.RadioControlProtocol.CallRequest", _, Hytera.RadioControlProtocol.CallRequest.read, Hytera.RadioControlProtocol.CallRequest.toPy⟩,
  ⟨"Hytera.RadioControlProtocol.RemoveRadioRequest", _, Hytera.RadioControlProtocol.RemoveRadioRequest.read, Hytera.RadioControlProtocol.RemoveRadioRequest.toPy⟩,
  ⟨"Hytera.RadioControlProtocol.BroadcastStatusConfigurationReply", _, Hytera.RadioControlProtocol.BroadcastStatusConfigurationReply.read, Hytera.RadioControlProtocol.BroadcastStatusConfigurationReply.toPy⟩,
  ⟨"Hytera.RadioControlProtocol.RemoveRadioReply", _, Hytera.RadioControlProtocol.RemoveRadioReply.read, Hytera.RadioControlProtocol.RemoveRadioReply.toPy⟩,
  ⟨"Hytera.RadioControlProtocol", _, Hytera.RadioControlProtocol.read, Hytera.RadioControlProtocol.toPy⟩,
  ⟨"Hytera.TextMessageProtocol", _, Hytera.TextMessageProtocol.read, Hytera.TextMessageProtocol.toPy⟩,
  ⟨"Hytera.LocationProtocol.TriggeredReportAnswer", _, Hytera.LocationProtocol.TriggeredReportAnswer.read, Hytera.LocationProtocol.TriggeredReportAnswer.toPy⟩,
  ⟨"Hytera.LocationProtocol.EmergencyReportStopRequest", _, Hytera.LocationProtocol.EmergencyReportStopRequest.read, Hytera.LocationProtocol.EmergencyReportStopRequest.toPy⟩,
  ⟨"Hytera.Intervalstring", _, Hytera.Intervalstring.read, Hytera.Intervalstring.toPy⟩,
  ⟨"Hytera.LocationProtocol.QuickGpsPayload", _, Hytera.LocationProtocol.QuickGpsPayload.read, Hytera.LocationProtocol.QuickGpsPayload.toPy⟩,
  ⟨"Hytera.LocationProtocol.ConditionQuickGpsRequest", _, Hytera.LocationProtocol.ConditionQuickGpsRequest.read, Hytera.LocationProtocol.ConditionQuickGpsRequest.toPy⟩,
  ⟨"Hytera.LocationProtocol.ConditionReport", _, Hytera.LocationProtocol.ConditionReport.read, Hytera.LocationProtocol.ConditionReport.toPy⟩,
  ⟨"Hytera.LocationProtocol.EmergencyReportStopAnswer", _, Hytera.LocationProtocol.EmergencyReportStopAnswer.read, Hytera.LocationProtocol.EmergencyReportStopAnswer.toPy⟩,
  ⟨"Hytera.LocationProtocol.ConditionReportAnswer", _, Hytera.LocationProtocol.ConditionReportAnswer.read, Hytera.LocationProtocol.ConditionReportAnswer.toPy⟩,
  ⟨"Hytera.LocationProtocol.StandardAnswer", _, Hytera.LocationProtocol.StandardAnswer.read, Hytera.LocationProtocol.StandardAnswer.toPy⟩,
  ⟨"Hytera.LocationProtocol.StandardRequest", _, Hytera.LocationProtocol.StandardRequest.read, Hytera.LocationProtocol.StandardRequest.toPy⟩,
  ⟨"Hytera.LocationProtocol.TriggeredReport", _, Hytera.LocationProtocol.TriggeredReport.read, Hytera.LocationProtocol.TriggeredReport.toPy⟩,
  ⟨"Hytera.LocationProtocol.TriggeredReportStopAnswer", _, Hytera.LocationProtocol.TriggeredReportStopAnswer.read, Hytera.LocationProtocol.TriggeredReportStopAnswer.toPy⟩,
  ⟨"Hytera.LocationProtocol.StandardAnswerWithRssi", _, Hytera.LocationProtocol.StandardAnswerWithRssi.read, Hytera.LocationProtocol.StandardAnswerWithRssi.toPy⟩,
  ⟨"Hytera.LocationProtocol.ConditionReportWithRssi", _, Hytera.LocationProtocol.ConditionReportWithRssi.read, Hytera.LocationProtocol.ConditionReportWithRssi.toPy⟩,
  ⟨"Hytera.LocationProtocol.TriggeredReportStopRequest", _, Hytera.LocationProtocol.TriggeredReportStopRequest.read, Hytera.LocationProtocol.TriggeredReportStopRequest.toPy⟩,
  ⟨"Hytera.LocationProtocol.EmergencyReport", _, Hytera.LocationProtocol.EmergencyReport.read, Hytera.LocationProtocol.EmergencyReport.toPy⟩,
  ⟨"Hytera.LocationProtocol.ConditionReportRequest", _, Hytera.LocationProtocol.ConditionReportRequest.read, Hytera.LocationProtocol.ConditionReportRequest.toPy⟩,
  ⟨"Hytera.LocationProtocol.TriggeredReportRequest", _, Hytera.LocationProtocol.TriggeredReportRequest.read, Hytera.LocationProtocol.TriggeredReportRequest.toPy⟩,
  ⟨"Hytera.LocationProtocol.ConditionQuickGpsAnswer", _, Hytera.LocationProtocol.ConditionQuickGpsAnswer.read, Hytera.LocationProtocol.ConditionQuickGpsAnswer.toPy⟩,
  ⟨"Hytera.LocationProtocol", _, Hytera.LocationProtocol.read, Hytera.LocationProtocol.toPy⟩,
  ⟨"Hytera.HyteraDmrApplicationProtocol", _, Hytera.HyteraDmrApplicationProtocol.read, Hytera.HyteraDmrApplicationProtocol.toPy⟩,
  ⟨"Hytera.HyteraRadioNetworkProtocol", _, Hytera.HyteraRadioNetworkProtocol.read, Hytera.HyteraRadioNetworkProtocol.toPy⟩,
  ⟨"Hytera.HyteraSimpleTransportReliabilityProtocol.Option", _, Hytera.HyteraSimpleTransportReliabilityProtocol.Option.read, Hytera.HyteraSimpleTransportReliabilityProtocol.Option.toPy⟩,
  ⟨"Hytera.HyteraSimpleTransportReliabilityProtocol", _, Hytera.HyteraSimpleTransportReliabilityProtocol.read, Hytera.HyteraSimpleTransportReliabilityProtocol.toPy⟩,
  ⟨"Hytera.IpSiteConnectHeartbeat.Keepalive", _, Hytera.IpSiteConnectHeartbeat.Keepalive.read, Hytera.IpSiteConnectHeartbeat.Keepalive.toPy⟩,
  ⟨"Hytera.IpSiteConnectHeartbeat.PingPong", _, Hytera.IpSiteConnectHeartbeat.PingPong.read, Hytera.IpSiteConnectHeartbeat.PingPong.toPy⟩,
  ⟨"Hytera.IpSiteConnectHeartbeat.Unknown", _, Hytera.IpSiteConnectHeartbeat.Unknown.read, Hytera.IpSiteConnectHeartbeat.Unknown.toPy⟩,
  ⟨"Hytera.IpSiteConnectHeartbeat", _, Hytera.IpSiteConnectHeartbeat.read, Hytera.IpSiteConnectHeartbeat.toPy⟩,
  ⟨"Hytera.IpSiteConnectProtocol", _, Hytera.IpSiteConnectProtocol.read, Hytera.IpSiteConnectProtocol.toPy⟩,
  ⟨"Hytera.RadioId", _, Hytera.RadioId.read, Hytera.RadioId.toPy⟩,
  ⟨"Hytera.RealTimeTransportProtocol.FixedHeader", _, Hytera.RealTimeTransportProtocol.FixedHeader.read, Hytera.RealTimeTransportProtocol.FixedHeader.toPy⟩,
  ⟨"Hytera.RealTimeTransportProtocol.HeaderExtension", _, Hytera.RealTimeTransportProtocol.HeaderExtension.read, Hytera.RealTimeTransportProtocol.HeaderExtension.toPy⟩,
  ⟨"Hytera.RealTimeTransportProtocol", _, Hytera.RealTimeTransportProtocol.read, Hytera.RealTimeTransportProtocol.toPy⟩,
  ⟨"Motorola.AutomaticRegistrationService.MessageHeaderBits", _, Motorola.AutomaticRegistrationService.MessageHeaderBits.read, Motorola.AutomaticRegistrationService.MessageHeaderBits.toPy⟩,
  ⟨"Motorola.AutomaticRegistrationService.DeviceRegistrationAcknowledgementHeader", _, Motorola.AutomaticRegistrationService.DeviceRegistrationAcknowledgementHeader.read, Motorola.AutomaticRegistrationService.DeviceRegistrationAcknowledgementHeader.toPy⟩,
  ⟨"Motorola.AutomaticRegistrationService.DeviceRegistrationAcknowledgementFailureReason", _, Motorola.AutomaticRegistrationService.DeviceRegistrationAcknowledgementFailureReason.read, Motorola.AutomaticRegistrationService.DeviceRegistrationAcknowledgementFailureReason.toPy⟩,
  ⟨"Motorola.AutomaticRegistrationService.DeviceRegistrationMessageHeader", _, Motorola.AutomaticRegistrationService.DeviceRegistrationMessageHeader.read, Motorola.AutomaticRegistrationService.DeviceRegistrationMessageHeader.toPy⟩,
  ⟨"Motorola.AutomaticRegistrationService.DeviceDeregistrationMessage", _, Motorola.AutomaticRegistrationService.DeviceDeregistrationMessage.read, Motorola.AutomaticRegistrationService.DeviceDeregistrationMessage.toPy⟩,
  ⟨"Motorola.AutomaticRegistrationService.ArsQueryMessage", _, Motorola.AutomaticRegistrationService.ArsQueryMessage.read, Motorola.AutomaticRegistrationService.ArsQueryMessage.toPy⟩,
  ⟨"Motorola.AutomaticRegistrationService", _, Motorola.AutomaticRegistrationService.read, Motorola.AutomaticRegistrationService.toPy⟩,
  ⟨"Motorola.MotorolaBinaryXml.OpaqueElementValue", _, Motorola.MotorolaBinaryXml.OpaqueElementValue.read, Motorola.MotorolaBinaryXml.OpaqueElementValue.toPy⟩,
  ⟨"Motorola.MotorolaBinaryXml.Opaque1byteValue", _, Motorola.MotorolaBinaryXml.Opaque1byteValue.read, Motorola.MotorolaBinaryXml.Opaque1byteValue.toPy⟩,
  ⟨"Motorola.MotorolaBinaryXml.Uintvar", _, Motorola.MotorolaBinaryXml.Uintvar.read, Motorola.MotorolaBinaryXml.Uintvar.toPy⟩,
  ⟨"Motorola.MotorolaBinaryXml.ConstantDataTableReference", _, Motorola.MotorolaBinaryXml.ConstantDataTableReference.read, Motorola.MotorolaBinaryXml.ConstantDataTableReference.toPy⟩,
  ⟨"Motorola.MotorolaBinaryXml.LrrpElement", _, Motorola.MotorolaBinaryXml.LrrpElement.read, Motorola.MotorolaBinaryXml.LrrpElement.toPy⟩,
  ⟨"Motorola.MotorolaBinaryXml.LrrpImmediateRequestNcdt", _, Motorola.MotorolaBinaryXml.LrrpImmediateRequestNcdt.read, Motorola.MotorolaBinaryXml.LrrpImmediateRequestNcdt.toPy⟩,
  ⟨"Motorola.MotorolaBinaryXml.Opaque3byteValue", _, Motorola.MotorolaBinaryXml.Opaque3byteValue.read, Motorola.MotorolaBinaryXml.Opaque3byteValue.toPy⟩,
  ⟨"Motorola.MotorolaBinaryXml.Sintvar", _, Motorola.MotorolaBinaryXml.Sintvar.read, Motorola.MotorolaBinaryXml.Sintvar.toPy⟩,
  ⟨"Motorola.MotorolaBinaryXml.Sfloatvar", _, Motorola.MotorolaBinaryXml.Sfloatvar.read, Motorola.MotorolaBinaryXml.Sfloatvar.toPy⟩,
  ⟨"Motorola.MotorolaBinaryXml.Opaque5byteValue", _, Motorola.MotorolaBinaryXml.Opaque5byteValue.read, Motorola.MotorolaBinaryXml.Opaque5byteValue.toPy⟩,
  ⟨"Motorola.MotorolaBinaryXml.Ufloatvar", _, Motorola.MotorolaBinaryXml.Ufloatvar.read, Motorola.MotorolaBinaryXml.Ufloatvar.toPy⟩,
  ⟨"Motorola.MotorolaBinaryXml.MbxmlDocument", _, Motorola.MotorolaBinaryXml.MbxmlDocument.read, Motorola.MotorolaBinaryXml.MbxmlDocument.toPy⟩,
  ⟨"Motorola.MotorolaBinaryXml.Opaque2byteValue", _, Motorola.MotorolaBinaryXml.Opaque2byteValue.read, Motorola.MotorolaBinaryXml.Opaque2byteValue.toPy⟩,
  ⟨"Motorola.MotorolaBinaryXml.Opaque4byteValue", _, Motorola.MotorolaBinaryXml.Opaque4byteValue.read, Motorola.MotorolaBinaryXml.Opaque4byteValue.toPy⟩,
  ⟨"Motorola.MotorolaBinaryXml", _, Motorola.MotorolaBinaryXml.read, Motorola.MotorolaBinaryXml.toPy⟩,
  ⟨"Motorola.TextMessageProtocol.MessageHeaderBits", _, Motorola.TextMessageProtocol.MessageHeaderBits.read, Motorola.TextMessageProtocol.MessageHeaderBits.toPy⟩,
  ⟨"Motorola.TextMessageProtocol.TextMessageHeaderSequenceAndEncoding", _, Motorola.TextMessageProtocol.TextMessageHeaderSequenceAndEncoding.read, Motorola.TextMessageProtocol.TextMessageHeaderSequenceAndEncoding.toPy⟩,
  ⟨"Motorola.TextMessageProtocol.TmsServiceAvailabilityHeader", _, Motorola.TextMessageProtocol.TmsServiceAvailabilityHeader.read, Motorola.TextMessageProtocol.TmsServiceAvailabilityHeader.toPy⟩,
  ⟨"Motorola.TextMessageProtocol.TmsAcknowledgementHeaderSequenceNumber", _, Motorola.TextMessageProtocol.TmsAcknowledgementHeaderSequenceNumber.read, Motorola.TextMessageProtocol.TmsAcknowledgementHeaderSequenceNumber.toPy⟩,
  ⟨"Motorola.TextMessageProtocol.TmsServiceAvailabilityAcknowledgement", _, Motorola.TextMessageProtocol.TmsServiceAvailabilityAcknowledgement.read, Motorola.TextMessageProtocol.TmsServiceAvailabilityAcknowledgement.toPy⟩,
  ⟨"Motorola.TextMessageProtocol", _, Motorola.TextMessageProtocol.read, Motorola.TextMessageProtocol.toPy⟩]

theorem objectDecoders_fit : ∀ d ∈ objectDecoders, Fits 0 0 d.read (fun x => 8 * PyVal.amount (d.view x)) 8 := by
  unfold objectDecoders
  refine List.forall_mem_cons.mpr ⟨Etsi.DmrCsbk.NegativeAckResponseData.read_fits.anywhere, ?_⟩
  refine List.forall_mem_cons.mpr ⟨Etsi.DmrCsbk.ServiceOptions.read_fits.anywhere, ?_⟩
  refine List.forall_mem_cons.mpr ⟨Etsi.DmrCsbk.UnitToUnitVoiceRequestData.read_fits.anywhere, ?_⟩
  refine List.forall_mem_cons.mpr ⟨Etsi.DmrCsbk.PreambleData.read_fits.anywhere, ?_⟩
  refine List.forall_mem_cons.mpr ⟨Etsi.DmrCsbk.ChannelTimingData.read_fits.anywhere, ?_⟩
  refine List.forall_mem_cons.mpr ⟨Etsi.DmrCsbk.BsOutboundActivationData.read_fits.anywhere, ?_⟩
  refine List.forall_mem_cons.mpr ⟨Etsi.DmrCsbk.UnitToUnitVoiceAnswerData.read_fits.anywhere, ?_⟩
  refine List.forall_mem_cons.mpr ⟨Etsi.DmrCsbk.read_fits.anywhere, ?_⟩
  refine List.forall_mem_cons.mpr ⟨Etsi.DmrData.Rate1LastBlockUnconfirmed.read_fits.anywhere, ?_⟩
  refine List.forall_mem_cons.mpr ⟨Etsi.DmrData.Rate12LastBlockConfirmed.read_fits.anywhere, ?_⟩
  refine List.forall_mem_cons.mpr ⟨Etsi.DmrData.Rate12Confirmed.read_fits.anywhere, ?_⟩
  refine List.forall_mem_cons.mpr ⟨Etsi.DmrData.Rate34LastBlockUnconfirmed.read_fits.anywhere, ?_⟩
  refine List.forall_mem_cons.mpr ⟨Etsi.DmrData.Rate1LastBlockConfirmed.read_fits.anywhere, ?_⟩
  refine List.forall_mem_cons.mpr ⟨Etsi.DmrData.Rate1Unconfirmed.read_fits.anywhere, ?_⟩
  refine List.forall_mem_cons.mpr ⟨Etsi.DmrData.UdtLastBlock.read_fits.anywhere, ?_⟩
  refine List.forall_mem_cons.mpr ⟨Etsi.DmrData.Rate34Confirmed.read_fits.anywhere, ?_⟩
  refine List.forall_mem_cons.mpr ⟨Etsi.DmrData.Rate34LastBlockConfirmed.read_fits.anywhere, ?_⟩
  refine List.forall_mem_cons.mpr ⟨Etsi.DmrData.Rate34Unconfirmed.read_fits.anywhere, ?_⟩
  refine List.forall_mem_cons.mpr ⟨Etsi.DmrData.Rate12LastBlockUnconfirmed.read_fits.anywhere, ?_⟩
  refine List.forall_mem_cons.mpr ⟨Etsi.DmrData.Rate1Confirmed.read_fits.anywhere, ?_⟩
  refine List.forall_mem_cons.mpr ⟨Etsi.DmrData.Rate12Unconfirmed.read_fits.anywhere, ?_⟩
  refine List.forall_mem_cons.mpr ⟨Etsi.DmrData.read_fits.anywhere, ?_⟩
  refine List.forall_mem_cons.mpr ⟨Etsi.DmrDataHeader.DataHeaderShortRaw.read_fits.anywhere, ?_⟩
  refine List.forall_mem_cons.mpr ⟨Etsi.DmrDataHeader.DataHeaderProprietary.read_fits.anywhere, ?_⟩
  refine List.forall_mem_cons.mpr ⟨Etsi.DmrDataHeader.DataHeaderUndefined.read_fits.anywhere, ?_⟩
  refine List.forall_mem_cons.mpr ⟨Etsi.DmrDataHeader.DataHeaderShortStatusPrecoded.read_fits.anywhere, ?_⟩
  refine List.forall_mem_cons.mpr ⟨Etsi.DmrDataHeader.DataHeaderResponse.read_fits.anywhere, ?_⟩
  refine List.forall_mem_cons.mpr ⟨Etsi.DmrDataHeader.DataHeaderConfirmed.read_fits.anywhere, ?_⟩
  refine List.forall_mem_cons.mpr ⟨Etsi.DmrDataHeader.DataHeaderUnconfirmed.read_fits.anywhere, ?_⟩
  refine List.forall_mem_cons.mpr ⟨Etsi.DmrDataHeader.DataHeaderShortDefined.read_fits.anywhere, ?_⟩
  refine List.forall_mem_cons.mpr ⟨Etsi.DmrDataHeader.DataHeaderUdt.read_fits.anywhere, ?_⟩
  refine List.forall_mem_cons.mpr ⟨Etsi.DmrDataHeader.read_fits.anywhere, ?_⟩
  refine List.forall_mem_cons.mpr ⟨Etsi.DmrIpUdp.UdpIpv4CompressedHeader.read_fits.anywhere, ?_⟩
  refine List.forall_mem_cons.mpr ⟨Etsi.DmrIpUdp.read_fits.anywhere, ?_⟩
  refine List.forall_mem_cons.mpr ⟨Etsi.FullLinkControl.GpsInfoLcPdu.read_fits.anywhere, ?_⟩
  refine List.forall_mem_cons.mpr ⟨Etsi.FullLinkControl.GroupVoiceChannelUser.read_fits.anywhere, ?_⟩
  refine List.forall_mem_cons.mpr ⟨Etsi.FullLinkControl.UnitToUnitVoiceChannelUser.read_fits.anywhere, ?_⟩
  refine List.forall_mem_cons.mpr ⟨Etsi.FullLinkControl.TalkerAliasHeader.read_fits.anywhere, ?_⟩
  refine List.forall_mem_cons.mpr ⟨Etsi.FullLinkControl.TalkerAliasContinuation.read_fits.anywhere, ?_⟩
  refine List.forall_mem_cons.mpr ⟨Etsi.FullLinkControl.read_fits, ?_⟩
  refine List.forall_mem_cons.mpr ⟨Homebrew.Homebrew2015.TypeMasterPing.read_fits.anywhere, ?_⟩
  refine List.forall_mem_cons.mpr ⟨Homebrew.Homebrew2015.TypeRepeaterPong.read_fits.anywhere, ?_⟩
  refine List.forall_mem_cons.mpr ⟨(Homebrew.Homebrew2015.TypeRepeaterClosing.read_fits.anywhere.weaken (Nat.le_refl _) fun _ => Nat.le_add_left _ 8), ?_⟩
  refine List.forall_mem_cons.mpr ⟨(Homebrew.Homebrew2015.TypeRepeaterConfiguration.read_fits.anywhere.weaken (Nat.le_refl _) fun _ => Nat.le_add_left _ 8), ?_⟩
  refine List.forall_mem_cons.mpr ⟨Homebrew.Homebrew2015.TypeRepeaterLoginResponse.read_fits.anywhere, ?_⟩
  refine List.forall_mem_cons.mpr ⟨Homebrew.Homebrew2015.TypeRepeaterLoginRequest.read_fits.anywhere, ?_⟩
  refine List.forall_mem_cons.mpr ⟨Homebrew.Homebrew2015.TypeMasterNotAccept.read_fits.anywhere, ?_⟩
  refine List.forall_mem_cons.mpr ⟨Homebrew.Homebrew2015.TypeMasterRepeaterAck.read_fits.anywhere, ?_⟩
  refine List.forall_mem_cons.mpr ⟨Homebrew.Homebrew2015.TypeMasterClosing.read_fits.anywhere, ?_⟩
  refine List.forall_mem_cons.mpr ⟨Homebrew.Homebrew2015.TypeDmrData.read_fits.anywhere, ?_⟩
  refine List.forall_mem_cons.mpr ⟨Homebrew.Homebrew2015.TypeRepeaterOptions.read_fits.anywhere, ?_⟩
  refine List.forall_mem_cons.mpr ⟨Homebrew.Homebrew2015.read_fits.anywhere, ?_⟩
  refine List.forall_mem_cons.mpr ⟨Homebrew.Mmdvm2020.TypeMasterPong.read_fits.anywhere, ?_⟩
  refine List.forall_mem_cons.mpr ⟨Homebrew.Mmdvm2020.TypeRadioPosition.read_fits.anywhere, ?_⟩
  refine List.forall_mem_cons.mpr ⟨Homebrew.Mmdvm2020.TypeTalkerAlias.read_fits.anywhere, ?_⟩
  refine List.forall_mem_cons.mpr ⟨(Homebrew.Mmdvm2020.TypeRepeaterClosing.read_fits.anywhere.weaken (Nat.le_refl _) fun _ => Nat.le_add_left _ 8), ?_⟩
  refine List.forall_mem_cons.mpr ⟨(Homebrew.Mmdvm2020.TypeRepeaterConfiguration.read_fits.anywhere.weaken (Nat.le_refl _) fun _ => Nat.le_add_left _ 8), ?_⟩
  refine List.forall_mem_cons.mpr ⟨Homebrew.Mmdvm2020.TypeRepeaterLoginResponse.read_fits.anywhere, ?_⟩
  refine List.forall_mem_cons.mpr ⟨Homebrew.Mmdvm2020.TypeRepeaterLoginRequest.read_fits.anywhere, ?_⟩
  refine List.forall_mem_cons.mpr ⟨Homebrew.Mmdvm2020.TypeMasterNotAccept.read_fits.anywhere, ?_⟩
  refine List.forall_mem_cons.mpr ⟨Homebrew.Mmdvm2020.TypeUnknown.read_fits.anywhere, ?_⟩
  refine List.forall_mem_cons.mpr ⟨Homebrew.Mmdvm2020.TypeMasterRepeaterAck.read_fits.anywhere, ?_⟩
  refine List.forall_mem_cons.mpr ⟨Homebrew.Mmdvm2020.TypeMasterClosing.read_fits.anywhere, ?_⟩
  refine List.forall_mem_cons.mpr ⟨Homebrew.Mmdvm2020.TypeDmrData.read_fits.anywhere, ?_⟩
  refine List.forall_mem_cons.mpr ⟨Homebrew.Mmdvm2020.TypeRepeaterBeacon.read_fits.anywhere, ?_⟩
  refine List.forall_mem_cons.mpr ⟨Homebrew.Mmdvm2020.TypeRepeaterOptions.read_fits.anywhere, ?_⟩
  refine List.forall_mem_cons.mpr ⟨Homebrew.Mmdvm2020.TypeRepeaterPing.read_fits.anywhere, ?_⟩
  refine List.forall_mem_cons.mpr ⟨Homebrew.Mmdvm2020.read_fits.anywhere, ?_⟩
  refine List.forall_mem_cons.mpr ⟨Hytera.RadioIp.read_fits.anywhere, ?_⟩
  refine List.forall_mem_cons.mpr ⟨Hytera.DataDeliveryStates.read_fits.anywhere, ?_⟩
  refine List.forall_mem_cons.mpr ⟨Hytera.DataTransmitProtocol.LastDataSlice.read_fits.anywhere, ?_⟩
  refine List.forall_mem_cons.mpr ⟨Hytera.DataTransmitProtocol.DataSliceAnswer.read_fits.anywhere, ?_⟩
  refine List.forall_mem_cons.mpr ⟨Hytera.DataTransmitProtocol.LastDataSliceAnswer.read_fits.anywhere, ?_⟩
  refine List.forall_mem_cons.mpr ⟨Hytera.DataTransmitProtocol.DtpAnswer.read_fits.anywhere, ?_⟩
  refine List.forall_mem_cons.mpr ⟨Hytera.DataTransmitProtocol.read_fits.anywhere, ?_⟩
  refine List.forall_mem_cons.mpr ⟨Hytera.Datetimestring.read_fits.anywhere, ?_⟩
  refine List.forall_mem_cons.mpr ⟨Hytera.Gpsdata.read_fits.anywhere, ?_⟩
  refine List.forall_mem_cons.mpr ⟨Hytera.HyteraDmrApplicationProtocol.UndefinedProtocol.read_fits.anywhere, ?_⟩
  refine List.forall_mem_cons.mpr ⟨Hytera.RadioRegistrationService.read_fits.anywhere, ?_⟩
  refine List.forall_mem_cons.mpr ⟨Hytera.TelemetryProtocol.StandardStatusRequest.read_fits.anywhere, ?_⟩
  refine List.forall_mem_cons.mpr ⟨Hytera.TelemetryProtocol.RemoteControlAnswer.read_fits.anywhere, ?_⟩
  refine List.forall_mem_cons.mpr ⟨Hytera.TelemetryProtocol.VioExtendedStatus.read_fits.anywhere, ?_⟩
  refine List.forall_mem_cons.mpr ⟨Hytera.TelemetryProtocol.ExtendedStatusReport.read_fits.anywhere, ?_⟩
  refine List.forall_mem_cons.mpr ⟨Hytera.TelemetryProtocol.RemoteControlRequest.read_fits.anywhere, ?_⟩
  refine List.forall_mem_cons.mpr ⟨Hytera.TelemetryProtocol.StandardStatusReport.read_fits.anywhere, ?_⟩
  refine List.forall_mem_cons.mpr ⟨Hytera.TelemetryProtocol.read_fits.anywhere, ?_⟩
  refine List.forall_mem_cons.mpr ⟨Hytera.RadioControlProtocol.CallReply.read_fits.anywhere, ?_⟩
  refine List.forall_mem_cons.mpr ⟨(Hytera.RadioControlProtocol.BroadcastConfiguration.read_fits.anywhere.weaken (Nat.le_refl _) fun _ => Nat.le_add_left _ 8), ?_⟩
  refine List.forall_mem_cons.mpr ⟨Hytera.RadioControlProtocol.BroadcastStatusConfigurationRequest.read_fits.anywhere, ?_⟩
  refine List.forall_mem_cons.mpr ⟨Hytera.RadioControlProtocol.CallRequest.read_fits.anywhere, ?_⟩
  refine List.forall_mem_cons.mpr ⟨Hytera.RadioControlProtocol.RemoveRadioRequest.read_fits.anywhere, ?_⟩
  refine List.forall_mem_cons.mpr ⟨Hytera.RadioControlProtocol.BroadcastStatusConfigurationReply.read_fits.anywhere, ?_⟩
  refine List.forall_mem_cons.mpr ⟨Hytera.RadioControlProtocol.RemoveRadioReply.read_fits.anywhere, ?_⟩
  refine List.forall_mem_cons.mpr ⟨Hytera.RadioControlProtocol.read_fits.anywhere, ?_⟩
  refine List.forall_mem_cons.mpr ⟨Hytera.TextMessageProtocol.read_fits.anywhere, ?_⟩
  refine List.forall_mem_cons.mpr ⟨Hytera.LocationProtocol.TriggeredReportAnswer.read_fits.anywhere, ?_⟩
  refine List.forall_mem_cons.mpr ⟨Hytera.LocationProtocol.EmergencyReportStopRequest.read_fits.anywhere, ?_⟩
  refine List.forall_mem_cons.mpr ⟨Hytera.Intervalstring.read_fits.anywhere, ?_⟩
  refine List.forall_mem_cons.mpr ⟨Hytera.LocationProtocol.QuickGpsPayload.read_fits.anywhere, ?_⟩
  refine List.forall_mem_cons.mpr ⟨Hytera.LocationProtocol.ConditionQuickGpsRequest.read_fits.anywhere, ?_⟩
  refine List.forall_mem_cons.mpr ⟨Hytera.LocationProtocol.ConditionReport.read_fits.anywhere, ?_⟩
  refine List.forall_mem_cons.mpr ⟨Hytera.LocationProtocol.EmergencyReportStopAnswer.read_fits.anywhere, ?_⟩
  refine List.forall_mem_cons.mpr ⟨Hytera.LocationProtocol.ConditionReportAnswer.read_fits.anywhere, ?_⟩
  refine List.forall_mem_cons.mpr ⟨Hytera.LocationProtocol.StandardAnswer.read_fits.anywhere, ?_⟩
  refine List.forall_mem_cons.mpr ⟨Hytera.LocationProtocol.StandardRequest.read_fits.anywhere, ?_⟩
  refine List.forall_mem_cons.mpr ⟨Hytera.LocationProtocol.TriggeredReport.read_fits.anywhere, ?_⟩
  refine List.forall_mem_cons.mpr ⟨Hytera.LocationProtocol.TriggeredReportStopAnswer.read_fits.anywhere, ?_⟩
  refine List.forall_mem_cons.mpr ⟨Hytera.LocationProtocol.StandardAnswerWithRssi.read_fits.anywhere, ?_⟩
  refine List.forall_mem_cons.mpr ⟨Hytera.LocationProtocol.ConditionReportWithRssi.read_fits.anywhere, ?_⟩
  refine List.forall_mem_cons.mpr ⟨Hytera.LocationProtocol.TriggeredReportStopRequest.read_fits.anywhere, ?_⟩
  refine List.forall_mem_cons.mpr ⟨Hytera.LocationProtocol.EmergencyReport.read_fits.anywhere, ?_⟩
  refine List.forall_mem_cons.mpr ⟨Hytera.LocationProtocol.ConditionReportRequest.read_fits.anywhere, ?_⟩
  refine List.forall_mem_cons.mpr ⟨Hytera.LocationProtocol.TriggeredReportRequest.read_fits.anywhere, ?_⟩
  refine List.forall_mem_cons.mpr ⟨Hytera.LocationProtocol.ConditionQuickGpsAnswer.read_fits.anywhere, ?_⟩
  refine List.forall_mem_cons.mpr ⟨Hytera.LocationProtocol.read_fits.anywhere, ?_⟩
  refine List.forall_mem_cons.mpr ⟨(Hytera.HyteraDmrApplicationProtocol.read_fits.anywhere.weaken (Nat.le_refl _) fun _ => Nat.le_add_left _ 8), ?_⟩
  refine List.forall_mem_cons.mpr ⟨Hytera.HyteraRadioNetworkProtocol.read_fits.anywhere, ?_⟩
  refine List.forall_mem_cons.mpr ⟨(Hytera.HyteraSimpleTransportReliabilityProtocol.Option.read_fits.anywhere.weaken (Nat.le_refl _) fun _ => Nat.le_add_left _ 8), ?_⟩
  refine List.forall_mem_cons.mpr ⟨Hytera.HyteraSimpleTransportReliabilityProtocol.read_fits.anywhere, ?_⟩
  refine List.forall_mem_cons.mpr ⟨Hytera.IpSiteConnectHeartbeat.Keepalive.read_fits.anywhere, ?_⟩
  refine List.forall_mem_cons.mpr ⟨Hytera.IpSiteConnectHeartbeat.PingPong.read_fits.anywhere, ?_⟩
  refine List.forall_mem_cons.mpr ⟨Hytera.IpSiteConnectHeartbeat.Unknown.read_fits.anywhere, ?_⟩
  refine List.forall_mem_cons.mpr ⟨Hytera.IpSiteConnectHeartbeat.read_fits.anywhere, ?_⟩
  refine List.forall_mem_cons.mpr ⟨Hytera.IpSiteConnectProtocol.read_fits.anywhere, ?_⟩
  refine List.forall_mem_cons.mpr ⟨Hytera.RadioId.read_fits.anywhere, ?_⟩
  refine List.forall_mem_cons.mpr ⟨Hytera.RealTimeTransportProtocol.FixedHeader.read_fits.anywhere, ?_⟩
  refine List.forall_mem_cons.mpr ⟨Hytera.RealTimeTransportProtocol.HeaderExtension.read_fits.anywhere, ?_⟩
  refine List.forall_mem_cons.mpr ⟨Hytera.RealTimeTransportProtocol.read_fits.anywhere, ?_⟩
  refine List.forall_mem_cons.mpr ⟨Motorola.AutomaticRegistrationService.MessageHeaderBits.read_fits.anywhere, ?_⟩
  refine List.forall_mem_cons.mpr ⟨Motorola.AutomaticRegistrationService.DeviceRegistrationAcknowledgementHeader.read_fits.anywhere, ?_⟩
  refine List.forall_mem_cons.mpr ⟨Motorola.AutomaticRegistrationService.DeviceRegistrationAcknowledgementFailureReason.read_fits.anywhere, ?_⟩
  refine List.forall_mem_cons.mpr ⟨Motorola.AutomaticRegistrationService.DeviceRegistrationMessageHeader.read_fits.anywhere, ?_⟩
  refine List.forall_mem_cons.mpr ⟨Motorola.AutomaticRegistrationService.DeviceDeregistrationMessage.read_fits.anywhere, ?_⟩
  refine List.forall_mem_cons.mpr ⟨Motorola.AutomaticRegistrationService.ArsQueryMessage.read_fits.anywhere, ?_⟩
  refine List.forall_mem_cons.mpr ⟨Motorola.AutomaticRegistrationService.read_fits.anywhere, ?_⟩
  refine List.forall_mem_cons.mpr ⟨Motorola.MotorolaBinaryXml.OpaqueElementValue.read_fits.anywhere, ?_⟩
  refine List.forall_mem_cons.mpr ⟨Motorola.MotorolaBinaryXml.Opaque1byteValue.read_fits.anywhere, ?_⟩
  refine List.forall_mem_cons.mpr ⟨Motorola.MotorolaBinaryXml.Uintvar.read_fits.anywhere, ?_⟩
  refine List.forall_mem_cons.mpr ⟨Motorola.MotorolaBinaryXml.ConstantDataTableReference.read_fits.anywhere, ?_⟩
  refine List.forall_mem_cons.mpr ⟨Motorola.MotorolaBinaryXml.LrrpElement.read_fits.anywhere, ?_⟩
  refine List.forall_mem_cons.mpr ⟨Motorola.MotorolaBinaryXml.LrrpImmediateRequestNcdt.read_fits.anywhere, ?_⟩
  refine List.forall_mem_cons.mpr ⟨Motorola.MotorolaBinaryXml.Opaque3byteValue.read_fits.anywhere, ?_⟩
  refine List.forall_mem_cons.mpr ⟨Motorola.MotorolaBinaryXml.Sintvar.read_fits.anywhere, ?_⟩
  refine List.forall_mem_cons.mpr ⟨Motorola.MotorolaBinaryXml.Sfloatvar.read_fits.anywhere, ?_⟩
  refine List.forall_mem_cons.mpr ⟨Motorola.MotorolaBinaryXml.Opaque5byteValue.read_fits.anywhere, ?_⟩
  refine List.forall_mem_cons.mpr ⟨Motorola.MotorolaBinaryXml.Ufloatvar.read_fits.anywhere, ?_⟩
  refine List.forall_mem_cons.mpr ⟨(Motorola.MotorolaBinaryXml.MbxmlDocument.read_fits.anywhere.weaken (Nat.le_refl _) fun _ => Nat.le_add_left _ 8), ?_⟩
  refine List.forall_mem_cons.mpr ⟨Motorola.MotorolaBinaryXml.Opaque2byteValue.read_fits.anywhere, ?_⟩
  refine List.forall_mem_cons.mpr ⟨Motorola.MotorolaBinaryXml.Opaque4byteValue.read_fits.anywhere, ?_⟩
  refine List.forall_mem_cons.mpr ⟨Motorola.MotorolaBinaryXml.read_fits.anywhere, ?_⟩
  refine List.forall_mem_cons.mpr ⟨Motorola.TextMessageProtocol.MessageHeaderBits.read_fits.anywhere, ?_⟩
  refine List.forall_mem_cons.mpr ⟨Motorola.TextMessageProtocol.TextMessageHeaderSequenceAndEncoding.read_fits, ?_⟩
  refine List.forall_mem_cons.mpr ⟨Motorola.TextMessageProtocol.TmsServiceAvailabilityHeader.read_fits.anywhere, ?_⟩
  refine List.forall_mem_cons.mpr ⟨Motorola.TextMessageProtocol.TmsAcknowledgementHeaderSequenceNumber.read_fits.anywhere, ?_⟩
  refine List.forall_mem_cons.mpr ⟨Motorola.TextMessageProtocol.TmsServiceAvailabilityAcknowledgement.read_fits.anywhere, ?_⟩
  refine List.forall_mem_cons.mpr ⟨Motorola.TextMessageProtocol.read_fits.anywhere, ?_⟩
  exact List.forall_mem_nil _

end Dmr
