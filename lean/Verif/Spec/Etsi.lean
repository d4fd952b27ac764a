import Verif.Spec
import Verif.Spec.Text
import Verif.Spec.Parse
import Verif.Model.Etsi.DmrCsbk
import Verif.Model.Etsi.DmrData
import Verif.Model.Etsi.DmrDataHeader
import Verif.Model.Etsi.DmrIpUdp
import Verif.Model.Etsi.FullLinkControl
/-
Where the fields of the fixed-size Etsi structures lie: `X.spec b q` is the object that the bytes of `b`
from offset `q` on stand for. Offsets are those of the protocol documents; nothing here reads a stream.
-/

namespace Dmr.Etsi

/-- `DmrCsbk.NegativeAckResponseData`, 8 bytes. -/
def DmrCsbk.NegativeAckResponseData.spec (b : Bytes) (q : Nat) : DmrCsbk.NegativeAckResponseData where
  additional_information_field := flagAt b (8 * q)
  source_type := flagAt b (8 * q + 1)
  service_type := bitsAt b (8 * q + 2) 6
  reason_code := bitsAt b (8 * q + 8) 8
  source_address := bitsAt b (8 * q + 16) 24
  target_address := bitsAt b (8 * q + 40) 24

/-- `DmrCsbk.ServiceOptions`, 1 byte. -/
def DmrCsbk.ServiceOptions.spec (b : Bytes) (q : Nat) : DmrCsbk.ServiceOptions where
  is_emergency_service := flagAt b (8 * q)
  privacy := flagAt b (8 * q + 1)
  reserved := bitsAt b (8 * q + 2) 2
  is_broadcast_service := flagAt b (8 * q + 4)
  is_open_voice_call_mode := flagAt b (8 * q + 5)
  priority_level := bitsAt b (8 * q + 6) 2

/-- `DmrCsbk.UnitToUnitVoiceRequestData`, 8 bytes. -/
def DmrCsbk.UnitToUnitVoiceRequestData.spec (b : Bytes) (q : Nat) : DmrCsbk.UnitToUnitVoiceRequestData where
  service_options := .spec b q
  reserved := bitsAt b (8 * q + 8) 8
  target_address := bitsAt b (8 * q + 16) 24
  source_address := bitsAt b (8 * q + 40) 24

/-- `DmrCsbk.PreambleData`, 8 bytes. -/
def DmrCsbk.PreambleData.spec (b : Bytes) (q : Nat) : DmrCsbk.PreambleData where
  preamble_data_or_csbk := resolveEnum _ (bitsAt b (8 * q) 1)
  group_or_individual := resolveEnum _ (bitsAt b (8 * q + 1) 1)
  preamble_reserved := bitsAt b (8 * q + 2) 6
  preamble_csbk_blocks_to_follow := bitsAt b (8 * q + 8) 8
  target_address := bitsAt b (8 * q + 16) 24
  source_address := bitsAt b (8 * q + 40) 24

/-- `DmrCsbk.ChannelTimingData`, 8 bytes. -/
def DmrCsbk.ChannelTimingData.spec (b : Bytes) (q : Nat) : DmrCsbk.ChannelTimingData where
  sync_age := bitsAt b (8 * q) 11
  generation := bitsAt b (8 * q + 11) 5
  leader_identifier := bitsAt b (8 * q + 16) 20
  new_leader := flagAt b (8 * q + 36)
  leader_dynamic_identifier := bitsAt b (8 * q + 37) 2
  channel_timing_op1 := flagAt b (8 * q + 39)
  source_identifier := bitsAt b (8 * q + 40) 20
  reserved := flagAt b (8 * q + 60)
  source_dynamic_identifier := bitsAt b (8 * q + 61) 2
  channel_timing_op0 := flagAt b (8 * q + 63)

/-- `DmrCsbk.BsOutboundActivationData`, 8 bytes. -/
def DmrCsbk.BsOutboundActivationData.spec (b : Bytes) (q : Nat) : DmrCsbk.BsOutboundActivationData where
  reserved := bitsAt b (8 * q) 16
  bs_address := bitsAt b (8 * q + 16) 24
  source_address := bitsAt b (8 * q + 40) 24

/-- `DmrCsbk.UnitToUnitVoiceAnswerData`, 8 bytes. -/
def DmrCsbk.UnitToUnitVoiceAnswerData.spec (b : Bytes) (q : Nat) : DmrCsbk.UnitToUnitVoiceAnswerData where
  service_options := .spec b q
  answer_response := resolveEnum _ (bitsAt b (8 * q + 8) 8)
  target_address := bitsAt b (8 * q + 16) 24
  source_address := bitsAt b (8 * q + 40) 24

/-- `DmrData.Rate1LastBlockUnconfirmed`, 24 bytes. -/
def DmrData.Rate1LastBlockUnconfirmed.spec (b : Bytes) (q : Nat) : DmrData.Rate1LastBlockUnconfirmed where
  user_data := slice b q 20
  message_crc32 := slice b (q + 20) 4

/-- `DmrData.Rate12LastBlockConfirmed`, 12 bytes. -/
def DmrData.Rate12LastBlockConfirmed.spec (b : Bytes) (q : Nat) : DmrData.Rate12LastBlockConfirmed where
  data_block_serial_number := bitsAt b (8 * q) 7
  crc9 := bitsAt b (8 * q + 7) 9
  user_data := slice b (q + 2) 6
  message_crc32 := slice b (q + 8) 4

/-- `DmrData.Rate12Confirmed`, 12 bytes. -/
def DmrData.Rate12Confirmed.spec (b : Bytes) (q : Nat) : DmrData.Rate12Confirmed where
  data_block_serial_number := bitsAt b (8 * q) 7
  crc9 := bitsAt b (8 * q + 7) 9
  user_data := slice b (q + 2) 10

/-- `DmrData.Rate34LastBlockUnconfirmed`, 18 bytes. -/
def DmrData.Rate34LastBlockUnconfirmed.spec (b : Bytes) (q : Nat) : DmrData.Rate34LastBlockUnconfirmed where
  user_data := slice b q 14
  message_crc32 := slice b (q + 14) 4

/-- `DmrData.Rate1LastBlockConfirmed`, 24 bytes. -/
def DmrData.Rate1LastBlockConfirmed.spec (b : Bytes) (q : Nat) : DmrData.Rate1LastBlockConfirmed where
  data_block_serial_number := bitsAt b (8 * q) 7
  crc9 := bitsAt b (8 * q + 7) 9
  user_data := slice b (q + 2) 18
  message_crc32 := slice b (q + 20) 4

/-- `DmrData.Rate1Unconfirmed`, 24 bytes. -/
def DmrData.Rate1Unconfirmed.spec (b : Bytes) (q : Nat) : DmrData.Rate1Unconfirmed where
  user_data := slice b q 24

/-- `DmrData.UdtLastBlock`, 12 bytes. -/
def DmrData.UdtLastBlock.spec (b : Bytes) (q : Nat) : DmrData.UdtLastBlock where
  user_data := slice b q 10
  message_crc16 := slice b (q + 10) 2

/-- `DmrData.Rate34Confirmed`, 18 bytes. -/
def DmrData.Rate34Confirmed.spec (b : Bytes) (q : Nat) : DmrData.Rate34Confirmed where
  data_block_serial_number := bitsAt b (8 * q) 7
  crc9 := bitsAt b (8 * q + 7) 9
  user_data := slice b (q + 2) 16

/-- `DmrData.Rate34LastBlockConfirmed`, 18 bytes. -/
def DmrData.Rate34LastBlockConfirmed.spec (b : Bytes) (q : Nat) : DmrData.Rate34LastBlockConfirmed where
  data_block_serial_number := bitsAt b (8 * q) 7
  crc9 := bitsAt b (8 * q + 7) 9
  user_data := slice b (q + 2) 12
  message_crc32 := slice b (q + 14) 4

/-- `DmrData.Rate34Unconfirmed`, 18 bytes. -/
def DmrData.Rate34Unconfirmed.spec (b : Bytes) (q : Nat) : DmrData.Rate34Unconfirmed where
  user_data := slice b q 18

/-- `DmrData.Rate12LastBlockUnconfirmed`, 12 bytes. -/
def DmrData.Rate12LastBlockUnconfirmed.spec (b : Bytes) (q : Nat) : DmrData.Rate12LastBlockUnconfirmed where
  user_data := slice b q 8
  message_crc32 := slice b (q + 8) 4

/-- `DmrData.Rate1Confirmed`, 24 bytes. -/
def DmrData.Rate1Confirmed.spec (b : Bytes) (q : Nat) : DmrData.Rate1Confirmed where
  data_block_serial_number := bitsAt b (8 * q) 7
  crc9 := bitsAt b (8 * q + 7) 9
  user_data := slice b (q + 2) 22

/-- `DmrData.Rate12Unconfirmed`, 12 bytes. -/
def DmrData.Rate12Unconfirmed.spec (b : Bytes) (q : Nat) : DmrData.Rate12Unconfirmed where
  user_data := slice b q 12

/-- `DmrDataHeader.DataHeaderShortRaw`, 12 bytes. -/
def DmrDataHeader.DataHeaderShortRaw.spec (b : Bytes) (q : Nat) : DmrDataHeader.DataHeaderShortRaw where
  llid_destination_is_group := flagAt b (8 * q)
  response_requested := flagAt b (8 * q + 1)
  appended_blocks_msb := bitsAt b (8 * q + 2) 2
  format := resolveEnum _ (bitsAt b (8 * q + 4) 4)
  sap_identifier := resolveEnum _ (bitsAt b (8 * q + 8) 4)
  appended_blocks_lsb := bitsAt b (8 * q + 12) 4
  llid_destination := bitsAt b (8 * q + 16) 24
  llid_source := bitsAt b (8 * q + 40) 24
  source_port := bitsAt b (8 * q + 64) 3
  destination_port := bitsAt b (8 * q + 67) 3
  selective_automatic_repeat_request := flagAt b (8 * q + 70)
  full_message_flag := flagAt b (8 * q + 71)
  bit_padding := bitsAt b (8 * q + 72) 8
  crc := slice b (q + 10) 2

/-- `DmrDataHeader.DataHeaderProprietary`, 12 bytes. -/
def DmrDataHeader.DataHeaderProprietary.spec (b : Bytes) (q : Nat) : DmrDataHeader.DataHeaderProprietary where
  sap_identifier := resolveEnum _ (bitsAt b (8 * q) 4)
  format := resolveEnum _ (bitsAt b (8 * q + 4) 4)
  mfid := bitsAt b (8 * q + 8) 8
  proprietary_data := slice b (q + 2) 8
  crc := slice b (q + 10) 2

/-- `DmrDataHeader.DataHeaderShortStatusPrecoded`, 12 bytes. -/
def DmrDataHeader.DataHeaderShortStatusPrecoded.spec (b : Bytes) (q : Nat) : DmrDataHeader.DataHeaderShortStatusPrecoded where
  llid_destination_is_group := flagAt b (8 * q)
  response_requested := flagAt b (8 * q + 1)
  appended_blocks_msb := bitsAt b (8 * q + 2) 2
  format := resolveEnum _ (bitsAt b (8 * q + 4) 4)
  sap_identifier := resolveEnum _ (bitsAt b (8 * q + 8) 4)
  appended_blocks_lsb := bitsAt b (8 * q + 12) 4
  llid_destination := bitsAt b (8 * q + 16) 24
  llid_source := bitsAt b (8 * q + 40) 24
  source_port := bitsAt b (8 * q + 64) 3
  destination_port := bitsAt b (8 * q + 67) 3
  status_precoded := bitsAt b (8 * q + 70) 10
  crc := slice b (q + 10) 2

/-- `DmrDataHeader.DataHeaderResponse`, 12 bytes. -/
def DmrDataHeader.DataHeaderResponse.spec (b : Bytes) (q : Nat) : DmrDataHeader.DataHeaderResponse where
  reserved1 := flagAt b (8 * q)
  response_requested := flagAt b (8 * q + 1)
  reserved2 := bitsAt b (8 * q + 2) 2
  format := resolveEnum _ (bitsAt b (8 * q + 4) 4)
  sap_identifier := resolveEnum _ (bitsAt b (8 * q + 8) 4)
  reserved3 := bitsAt b (8 * q + 12) 4
  llid_destination := bitsAt b (8 * q + 16) 24
  llid_source := bitsAt b (8 * q + 40) 24
  full_message_flag := flagAt b (8 * q + 64)
  blocks_to_follow := bitsAt b (8 * q + 65) 7
  response_class := resolveEnum _ (bitsAt b (8 * q + 72) 2)
  response_type := bitsAt b (8 * q + 74) 3
  response_status := bitsAt b (8 * q + 77) 3
  crc := slice b (q + 10) 2

/-- `DmrDataHeader.DataHeaderConfirmed`, 12 bytes. -/
def DmrDataHeader.DataHeaderConfirmed.spec (b : Bytes) (q : Nat) : DmrDataHeader.DataHeaderConfirmed where
  llid_destination_is_group := flagAt b (8 * q)
  response_requested := flagAt b (8 * q + 1)
  reserved1 := flagAt b (8 * q + 2)
  pad_octet_count_msb := flagAt b (8 * q + 3)
  format := resolveEnum _ (bitsAt b (8 * q + 4) 4)
  sap_identifier := resolveEnum _ (bitsAt b (8 * q + 8) 4)
  pad_octet_count := bitsAt b (8 * q + 12) 4
  llid_destination := bitsAt b (8 * q + 16) 24
  llid_source := bitsAt b (8 * q + 40) 24
  full_message_flag := flagAt b (8 * q + 64)
  blocks_to_follow := bitsAt b (8 * q + 65) 7
  resynchronize_flag := flagAt b (8 * q + 72)
  send_sequence_number := bitsAt b (8 * q + 73) 3
  fragment_sequence_number := bitsAt b (8 * q + 76) 4
  crc := slice b (q + 10) 2

/-- `DmrDataHeader.DataHeaderUnconfirmed`, 12 bytes. -/
def DmrDataHeader.DataHeaderUnconfirmed.spec (b : Bytes) (q : Nat) : DmrDataHeader.DataHeaderUnconfirmed where
  llid_destination_is_group := flagAt b (8 * q)
  response_requested := flagAt b (8 * q + 1)
  reserved1 := flagAt b (8 * q + 2)
  pad_octet_count_msb := flagAt b (8 * q + 3)
  format := resolveEnum _ (bitsAt b (8 * q + 4) 4)
  sap_identifier := resolveEnum _ (bitsAt b (8 * q + 8) 4)
  pad_octet_count := bitsAt b (8 * q + 12) 4
  llid_destination := bitsAt b (8 * q + 16) 24
  llid_source := bitsAt b (8 * q + 40) 24
  full_message_flag := flagAt b (8 * q + 64)
  blocks_to_follow := bitsAt b (8 * q + 65) 7
  reserved2 := bitsAt b (8 * q + 72) 4
  fragment_sequence_number := bitsAt b (8 * q + 76) 4
  crc := slice b (q + 10) 2

/-- `DmrDataHeader.DataHeaderShortDefined`, 12 bytes. -/
def DmrDataHeader.DataHeaderShortDefined.spec (b : Bytes) (q : Nat) : DmrDataHeader.DataHeaderShortDefined where
  llid_destination_is_group := flagAt b (8 * q)
  response_requested := flagAt b (8 * q + 1)
  appended_blocks_msb := bitsAt b (8 * q + 2) 2
  format := resolveEnum _ (bitsAt b (8 * q + 4) 4)
  sap_identifier := resolveEnum _ (bitsAt b (8 * q + 8) 4)
  appended_blocks_lsb := bitsAt b (8 * q + 12) 4
  llid_destination := bitsAt b (8 * q + 16) 24
  llid_source := bitsAt b (8 * q + 40) 24
  defined_data := resolveEnum _ (bitsAt b (8 * q + 64) 6)
  selective_automatic_repeat_request := flagAt b (8 * q + 70)
  full_message_flag := flagAt b (8 * q + 71)
  bit_padding := bitsAt b (8 * q + 72) 8
  crc := slice b (q + 10) 2

/-- `DmrDataHeader.DataHeaderUdt`, 12 bytes. -/
def DmrDataHeader.DataHeaderUdt.spec (b : Bytes) (q : Nat) : DmrDataHeader.DataHeaderUdt where
  llid_destination_is_group := flagAt b (8 * q)
  response_requested := flagAt b (8 * q + 1)
  reserved1 := bitsAt b (8 * q + 2) 2
  format := resolveEnum _ (bitsAt b (8 * q + 4) 4)
  sap_identifier := resolveEnum _ (bitsAt b (8 * q + 8) 4)
  udt_format := resolveEnum _ (bitsAt b (8 * q + 12) 4)
  llid_destination := bitsAt b (8 * q + 16) 24
  llid_source := bitsAt b (8 * q + 40) 24
  pad_nibble := bitsAt b (8 * q + 64) 5
  reserved2 := flagAt b (8 * q + 69)
  appended_blocks := bitsAt b (8 * q + 70) 2
  supplementary_flag := flagAt b (8 * q + 72)
  protect_flag := flagAt b (8 * q + 73)
  udt_opcode := resolveEnum _ (bitsAt b (8 * q + 74) 6)
  crc := slice b (q + 10) 2

/-- `DmrDataHeader`, 1 byte. -/
def DmrDataHeader.spec (b : Bytes) (q : Nat) : DmrDataHeader where
  skip4 := bitsAt b (8 * q) 4
  data_packet_format := resolveEnum _ (bitsAt b (8 * q + 4) 4)

/-- `FullLinkControl.GpsInfoLcPdu`, 7 bytes. -/
def FullLinkControl.GpsInfoLcPdu.spec (b : Bytes) (q : Nat) : FullLinkControl.GpsInfoLcPdu where
  reserved := bitsAt b (8 * q) 4
  position_error := resolveEnum _ (bitsAt b (8 * q + 4) 3)
  longitude := bitsAt b (8 * q + 7) 25
  latitude := bitsAt b (8 * q + 32) 24

/-- `FullLinkControl.GroupVoiceChannelUser`, 7 bytes. -/
def FullLinkControl.GroupVoiceChannelUser.spec (b : Bytes) (q : Nat) : FullLinkControl.GroupVoiceChannelUser where
  service_options := bitsAt b (8 * q) 8
  group_address := bitsAt b (8 * q + 8) 24
  source_address := bitsAt b (8 * q + 32) 24

/-- `FullLinkControl.UnitToUnitVoiceChannelUser`, 7 bytes. -/
def FullLinkControl.UnitToUnitVoiceChannelUser.spec (b : Bytes) (q : Nat) : FullLinkControl.UnitToUnitVoiceChannelUser where
  service_options := bitsAt b (8 * q) 8
  target_address := bitsAt b (8 * q + 8) 24
  source_address := bitsAt b (8 * q + 32) 24

/-- `FullLinkControl.TalkerAliasHeader`, 7 bytes. -/
def FullLinkControl.TalkerAliasHeader.spec (b : Bytes) (q : Nat) : FullLinkControl.TalkerAliasHeader where
  talker_alias_data_format := resolveEnum _ (bitsAt b (8 * q) 2)
  talker_alias_data_length := bitsAt b (8 * q + 2) 5
  talker_alias_data := bitsAt b (8 * q + 7) 49

/-- `FullLinkControl.TalkerAliasContinuation`, 7 bytes. -/
def FullLinkControl.TalkerAliasContinuation.spec (b : Bytes) (q : Nat) : FullLinkControl.TalkerAliasContinuation where
  talker_alias_data := bitsAt b (8 * q) 56

end Dmr.Etsi
