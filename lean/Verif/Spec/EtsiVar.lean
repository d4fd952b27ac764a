import Verif.Spec.Etsi
/-
Where the parts of the variable-size ETSI messages lie (see `Verif/Spec/HyteraVar.lean` for the style).
-/

namespace Dmr.Etsi

/-- CSBK body by 6 bit opcode; each known body is 8 bytes. -/
def DmrCsbk.bodySpec (opcode : Nat) (b : Bytes) (q : Nat) : Parsed (Option DmrCsbk.CsbkDataUnion) :=
  if opcode = 5 then (whole 8 UnitToUnitVoiceAnswerData.spec b q).as fun x => some (.unitToUnitVoiceAnswerData x)
  else if opcode = 61 then (whole 8 PreambleData.spec b q).as fun x => some (.preambleData x)
  else if opcode = 7 then (whole 8 ChannelTimingData.spec b q).as fun x => some (.channelTimingData x)
  else if opcode = 4 then
    (whole 8 UnitToUnitVoiceRequestData.spec b q).as fun x => some (.unitToUnitVoiceRequestData x)
  else if opcode = 56 then (whole 8 BsOutboundActivationData.spec b q).as fun x => some (.bsOutboundActivationData x)
  else if opcode = 38 then (whole 8 NegativeAckResponseData.spec b q).as fun x => some (.negativeAckResponseData x)
  else .ok (none, q)

/-- CSBK: last block flag, protect flag, 6 bit opcode, 8 bit feature set, body. -/
def DmrCsbk.spec (b : Bytes) (q : Nat) : Parsed DmrCsbk :=
  upTo b (q + 2) <|
  next b (bodySpec (bitsAt b (8 * q + 2) 6) b (q + 2)) fun csbk_data e =>
  .ok ({ last_block := flagAt b (8 * q)
         protect_flag := flagAt b (8 * q + 1)
         csbk_opcode := resolveEnum _ (bitsAt b (8 * q + 2) 6)
         feature_set_id := bitsAt b (8 * q + 8) 8
         csbk_data }, e)

/-- Full link control body by 6 bit opcode; each known body is 7 bytes. -/
def FullLinkControl.bodySpec (opcode : Nat) (b : Bytes) (q : Nat) :
    Parsed (Option FullLinkControl.SpecificDataUnion) :=
  if opcode = 4 then (whole 7 TalkerAliasHeader.spec b q).as fun x => some (.talkerAliasHeader x)
  else if opcode = 3 then
    (whole 7 UnitToUnitVoiceChannelUser.spec b q).as fun x => some (.unitToUnitVoiceChannelUser x)
  else if opcode = 0 then (whole 7 GroupVoiceChannelUser.spec b q).as fun x => some (.groupVoiceChannelUser x)
  else if opcode = 7 then (whole 7 TalkerAliasContinuation.spec b q).as fun x => some (.talkerAliasContinuation x)
  else if opcode = 5 then (whole 7 TalkerAliasContinuation.spec b q).as fun x => some (.talkerAliasContinuation x)
  else if opcode = 6 then (whole 7 TalkerAliasContinuation.spec b q).as fun x => some (.talkerAliasContinuation x)
  else if opcode = 8 then (whole 7 GpsInfoLcPdu.spec b q).as fun x => some (.gpsInfoLcPdu x)
  else .ok (none, q)

/-- Full link control, as the whole data `b`: two header bytes, body, then 3 bytes of CRC iff at least 3 bytes
are left, then a 5 bit checksum iff the whole data is at most 10 bytes. -/
def FullLinkControl.spec (b : Bytes) : Except PyErr FullLinkControl :=
  upTo b 2 <|
  next b (bodySpec (bitsAt b 2 6) b 2) fun specific_data e =>
  let mk := fun crc_checksum cs5_checksum =>
    ({ protect_flag := flagAt b 0
       reserved := flagAt b 1
       full_link_control_opcode := resolveEnum _ (bitsAt b 2 6)
       feature_set_id := resolveEnum _ (bitsAt b 8 8)
       specific_data, crc_checksum, cs5_checksum } : FullLinkControl)
  if e + 3 ≤ b.length then
    if b.length ≤ 10 then upTo b (e + 4) <| .ok (mk (some (slice b e 3)) (some (bitsAt b (8 * e + 24) 5)))
    else .ok (mk (some (slice b e 3)) none)
  else
    if b.length ≤ 10 then upTo b (e + 1) <| .ok (mk none (some (bitsAt b (8 * e) 5)))
    else .ok (mk none none)

/-- Compressed UDP/IPv4 header, 5 bytes, extended ports iff their ids are 0, and all the rest. -/
def DmrIpUdp.UdpIpv4CompressedHeader.spec (b : Bytes) (q : Nat) : Parsed DmrIpUdp.UdpIpv4CompressedHeader :=
  upTo b (q + 5) <|
  next b (optPart (bitsAt b (8 * q + 25) 7 = 0) (whole 2 (fun b o => slice b o 2) b (q + 5)) (q + 5)) fun sport e1 =>
  next b (optPart (bitsAt b (8 * q + 33) 7 = 0) (whole 2 (fun b o => slice b o 2) b e1) e1) fun dport e2 =>
  .ok ({ ipv4_identification := slice b q 2
         source_ip_address_id := resolveEnum _ (bitsAt b (8 * q + 16) 4)
         destination_ip_address_id := resolveEnum _ (bitsAt b (8 * q + 20) 4)
         header_compression_opcode_msb := flagAt b (8 * q + 24)
         udp_source_port_id := resolveEnum _ (bitsAt b (8 * q + 25) 7)
         header_compression_opcode_lsb := flagAt b (8 * q + 32)
         udp_destination_port_id := resolveEnum _ (bitsAt b (8 * q + 33) 7)
         udp_source_port := sport
         udp_destination_port := dport
         user_data := b.drop e2 }, b.length)

/-- What `.data` of a data header stands for, given the 12 bytes `raw` and the 4 bit format. -/
def DmrDataHeader.bodySpec (format : Nat) (raw : Bytes) : DmrDataHeader.DataUnion :=
  if format = 15 then .dataHeaderProprietary (DataHeaderProprietary.spec raw 0)
  else if format = 13 then .dataHeaderShortDefined (DataHeaderShortDefined.spec raw 0)
  else if format = 2 then .dataHeaderUnconfirmed (DataHeaderUnconfirmed.spec raw 0)
  else if format = 3 then .dataHeaderConfirmed (DataHeaderConfirmed.spec raw 0)
  else if format = 0 then .dataHeaderUdt (DataHeaderUdt.spec raw 0)
  else if format = 14 then .dataHeaderShortStatusPrecoded (DataHeaderShortStatusPrecoded.spec raw 0)
  else if format = 1 then .dataHeaderResponse (DataHeaderResponse.spec raw 0)
  else .dataHeaderUndefined ⟨raw⟩

end Dmr.Etsi
