import Verif.Spec.Hytera
/-
Where the parts of the variable-size Hytera messages lie. `X.spec b q` is what the bytes of `b` from offset
`q` on stand for: the object and the offset of the first byte after it, or the exception. Nothing here
reads a stream.
-/

namespace Dmr.Hytera

/-- `Datetimestring`, 14 characters of UTF-8. -/
def Datetimestring.spec (b : Bytes) (q : Nat) : Parsed Datetimestring :=
  textAt decodeUtf8 b q 14 fun t => .ok ({ datetime := t }, q + 14)

/-- `Intervalstring`, 8 characters of UTF-8. -/
def Intervalstring.spec (b : Bytes) (q : Nat) : Parsed Intervalstring :=
  textAt decodeUtf8 b q 8 fun t => .ok ({ interval := t }, q + 8)

/-! ### Data Transmit Protocol -/

/-- DTP request: addresses, file size, then `message_length - 10` bytes of file name in UTF-16LE. -/
def DataTransmitProtocol.DtpRequest.spec (message_length : Nat) (b : Bytes) (q : Nat) :
    Parsed DataTransmitProtocol.DtpRequest :=
  upTo b (q + 10) <|
  sizedAt b (q + 10) (message_length - 10) fun raw =>
  decoded (decodeUtf16le raw) fun file_name =>
  .ok ({ destination_ip := .spec b q
         source_ip := .spec b (q + 4)
         file_size := u16be b (q + 8)
         file_name }, q + 10 + (message_length - 10))

/-- DTP data slice: addresses, block number, then `message_length - 10` bytes of file data. -/
def DataTransmitProtocol.DataSliceTransmit.spec (message_length : Nat) (b : Bytes) (q : Nat) :
    Parsed DataTransmitProtocol.DataSliceTransmit :=
  upTo b (q + 10) <|
  sizedAt b (q + 10) (message_length - 10) fun file_data =>
  .ok ({ destination_ip := .spec b q
         source_ip := .spec b (q + 4)
         block_number := u16be b (q + 8)
         file_data }, q + 10 + (message_length - 10))

/-- DTP body by service specific type. -/
def DataTransmitProtocol.bodySpec (service_specific_type message_length : Nat) (b : Bytes) (q : Nat) :
    Parsed (Option DataTransmitProtocol.DataUnion) :=
  if service_specific_type = 0x01 then
    (DtpRequest.spec message_length b q).as fun x => some (.dtpRequest x)
  else if service_specific_type = 0x02 then
    (DataSliceTransmit.spec message_length b q).as fun x => some (.dataSliceTransmit x)
  else if service_specific_type = 0x12 then
    (whole 11 DataSliceAnswer.spec b q).as fun x => some (.dataSliceAnswer x)
  else if service_specific_type = 0x13 then
    (whole 9 LastDataSliceAnswer.spec b q).as fun x => some (.lastDataSliceAnswer x)
  else if service_specific_type = 0x11 then
    (whole 9 DtpAnswer.spec b q).as fun x => some (.dtpAnswer x)
  else if service_specific_type = 0x03 then
    (whole 8 LastDataSlice.spec b q).as fun x => some (.lastDataSlice x)
  else .ok (none, q)

/-- Data Transmit Protocol: 4 byte header, then the body. -/
def DataTransmitProtocol.spec (b : Bytes) (q : Nat) : Parsed DataTransmitProtocol :=
  upTo b (q + 4) <|
  next b (bodySpec (u8 b (q + 1)) (u16be b (q + 2)) b (q + 4)) fun data e =>
  .ok ({ service_type := resolveEnum _ (u8 b q)
         service_specific_type := resolveEnum _ (u8 b (q + 1))
         message_length := u16be b (q + 2)
         data }, e)

/-! ### Location Protocol -/

/-- Condition report request, 57 bytes. -/
def LocationProtocol.ConditionReportRequest.spec (b : Bytes) (q : Nat) :
    Parsed LocationProtocol.ConditionReportRequest :=
  upTo b (q + 13) <|
  textAt decodeUtf8 b (q + 13) 14 fun start =>
  textAt decodeUtf8 b (q + 27) 14 fun stop =>
  textAt decodeUtf8 b (q + 41) 8 fun interval =>
  textAt decodeUtf8 b (q + 49) 8 fun max_interval =>
  .ok ({ request_id := u32be b q
         radio_ip := .spec b (q + 4)
         trigger_type := u8 b (q + 8)
         distance := u32be b (q + 9)
         start_time := ⟨start⟩
         stop_time := ⟨stop⟩
         interval := ⟨interval⟩
         max_interval := ⟨max_interval⟩ }, q + 57)

/-- Quick GPS payload, 41 bytes. -/
def LocationProtocol.QuickGpsPayload.spec (b : Bytes) (q : Nat) : Parsed LocationProtocol.QuickGpsPayload :=
  textAt decodeUtf8 b q 14 fun start =>
  textAt decodeUtf8 b (q + 14) 14 fun stop =>
  textAt decodeUtf8 b (q + 28) 8 fun interval =>
  upTo b (q + 41) <|
  .ok ({ start_time := ⟨start⟩
         stop_time := ⟨stop⟩
         interval := ⟨interval⟩
         send_step := u16be b (q + 36)
         channel_use_percentage := u8 b (q + 38)
         send_order := u16be b (q + 39) }, q + 41)

/-- Quick GPS request: 9 bytes, followed by the payload iff the command is "start" (1). -/
def LocationProtocol.ConditionQuickGpsRequest.spec (b : Bytes) (q : Nat) :
    Parsed LocationProtocol.ConditionQuickGpsRequest :=
  upTo b (q + 9) <|
  if u8 b (q + 8) = 1 then
    next b (QuickGpsPayload.spec b (q + 9)) fun payload e =>
    .ok ({ request_id := u32be b q
           radio_ip := .spec b (q + 4)
           cmd_type := resolveEnum _ (u8 b (q + 8))
           quick_gps_payload := some payload }, e)
  else
    .ok ({ request_id := u32be b q
           radio_ip := .spec b (q + 4)
           cmd_type := resolveEnum _ (u8 b (q + 8))
           quick_gps_payload := none }, q + 9)

/-- Triggered report request, 44 bytes. -/
def LocationProtocol.TriggeredReportRequest.spec (b : Bytes) (q : Nat) :
    Parsed LocationProtocol.TriggeredReportRequest :=
  upTo b (q + 8) <|
  textAt decodeUtf8 b (q + 8) 14 fun start =>
  textAt decodeUtf8 b (q + 22) 14 fun stop =>
  textAt decodeUtf8 b (q + 36) 8 fun interval =>
  .ok ({ request_id := u32be b q
         radio_ip := .spec b (q + 4)
         start_time := ⟨start⟩
         stop_time := ⟨stop⟩
         interval := ⟨interval⟩ }, q + 44)

/-- Triggered report, 56 bytes. -/
def LocationProtocol.TriggeredReport.spec (b : Bytes) (q : Nat) : Parsed LocationProtocol.TriggeredReport :=
  upTo b (q + 8) <|
  textAt decodeUtf8 b (q + 8) 8 fun remaining =>
  upTo b (q + 56) <|
  .ok ({ request_id := u32be b q
         radio_ip := .spec b (q + 4)
         time_remaining := ⟨remaining⟩
         gpsdata := .spec b (q + 16) }, q + 56)

/-- Location Protocol body by opcode. -/
def LocationProtocol.bodySpec (opcode : Nat) (b : Bytes) (q : Nat) : Parsed (Option LocationProtocol.DataUnion) :=
  if opcode = 0xC002 then (whole 10 TriggeredReportAnswer.spec b q).as fun x => some (.triggeredReportAnswer x)
  else if opcode = 0xB001 then
    (whole 8 EmergencyReportStopRequest.spec b q).as fun x => some (.emergencyReportStopRequest x)
  else if opcode = 0xD011 then (ConditionQuickGpsRequest.spec b q).as fun x => some (.conditionQuickGpsRequest x)
  else if opcode = 0xD003 then (whole 48 ConditionReport.spec b q).as fun x => some (.conditionReport x)
  else if opcode = 0xB002 then
    (whole 10 EmergencyReportStopAnswer.spec b q).as fun x => some (.emergencyReportStopAnswer x)
  else if opcode = 0xD002 then (whole 11 ConditionReportAnswer.spec b q).as fun x => some (.conditionReportAnswer x)
  else if opcode = 0xA002 then (whole 50 StandardAnswer.spec b q).as fun x => some (.standardAnswer x)
  else if opcode = 0xA001 then (whole 8 StandardRequest.spec b q).as fun x => some (.standardRequest x)
  else if opcode = 0xC003 then (TriggeredReport.spec b q).as fun x => some (.triggeredReport x)
  else if opcode = 0xC005 then
    (whole 10 TriggeredReportStopAnswer.spec b q).as fun x => some (.triggeredReportStopAnswer x)
  else if opcode = 0xA003 then
    (whole 52 StandardAnswerWithRssi.spec b q).as fun x => some (.standardAnswerWithRssi x)
  else if opcode = 0xD004 then
    (whole 52 ConditionReportWithRssi.spec b q).as fun x => some (.conditionReportWithRssi x)
  else if opcode = 0xC004 then
    (whole 8 TriggeredReportStopRequest.spec b q).as fun x => some (.triggeredReportStopRequest x)
  else if opcode = 0xB003 then (whole 45 EmergencyReport.spec b q).as fun x => some (.emergencyReport x)
  else if opcode = 0xD001 then (ConditionReportRequest.spec b q).as fun x => some (.conditionReportRequest x)
  else if opcode = 0xC001 then (TriggeredReportRequest.spec b q).as fun x => some (.triggeredReportRequest x)
  else if opcode = 0xD012 then
    (whole 11 ConditionQuickGpsAnswer.spec b q).as fun x => some (.conditionQuickGpsAnswer x)
  else .ok (none, q)

/-- Location Protocol: 16 bit opcode, 16 bit length (not used for anything), body. -/
def LocationProtocol.spec (b : Bytes) (q : Nat) : Parsed LocationProtocol :=
  upTo b (q + 4) <|
  next b (bodySpec (u16be b q) b (q + 4)) fun data e =>
  .ok ({ opcode_header := resolveEnum _ (u16be b q)
         message_length := u16be b (q + 2)
         data }, e)

/-! ### Radio Control Protocol -/

/-- Broadcast configuration request: a count and that many pairs of bytes. -/
def RadioControlProtocol.BroadcastStatusConfigurationRequest.spec (b : Bytes) (q : Nat) :
    Parsed RadioControlProtocol.BroadcastStatusConfigurationRequest :=
  upTo b (q + 1) <|
  upTo b (q + 1 + 2 * u8 b q) <|
  .ok ({ num_broadcast_configuration := u8 b q
         broadcast_configuration :=
           (List.range (u8 b q)).map fun i => BroadcastConfiguration.spec b (q + 1 + 2 * i) },
       q + 1 + 2 * u8 b q)

/-- Identification reply: nothing, 6 bytes, 6 bytes and 192 bytes of UTF-16BE text, or these and 8 bytes more,
depending on the announced message length. -/
def RadioControlProtocol.RadioIdentificationReply.spec (message_length : Nat) (b : Bytes) (q : Nat) :
    Parsed RadioControlProtocol.RadioIdentificationReply :=
  if message_length < 6 then .ok ({ header := none, text := none, footer := none }, q)
  else
  upTo b (q + 6) <|
  if message_length < 198 then .ok ({ header := some (slice b q 6), text := none, footer := none }, q + 6)
  else
  textAt decodeUtf16be b (q + 6) 192 fun text =>
  if message_length < 206 then .ok ({ header := some (slice b q 6), text := some text, footer := none }, q + 198)
  else
  upTo b (q + 206) <|
  .ok ({ header := some (slice b q 6), text := some text, footer := some (slice b (q + 198) 8) }, q + 206)

/-- Radio Control Protocol body by service type. -/
def RadioControlProtocol.bodySpec (service_type message_length : Nat) (b : Bytes) (q : Nat) :
    Parsed RadioControlProtocol.DataUnion :=
  if service_type = 0x8841 then (whole 1 CallReply.spec b q).as .callReply
  else if service_type = 0x82D4 then
    (RadioIdentificationReply.spec message_length b q).as .radioIdentificationReply
  else if service_type = 0x10C9 then
    (BroadcastStatusConfigurationRequest.spec b q).as .broadcastStatusConfigurationRequest
  else if service_type = 0x0841 then (whole 5 CallRequest.spec b q).as .callRequest
  else if service_type = 0x0842 then .ok (.removeRadioRequest {}, q)
  else if service_type = 0x80C9 then
    (whole 1 BroadcastStatusConfigurationReply.spec b q).as .broadcastStatusConfigurationReply
  else if service_type = 0x8842 then (whole 1 RemoveRadioReply.spec b q).as .removeRadioReply
  else
    upTo b (q + message_length) <|
    .ok (.genericData { data := slice b q message_length }, q + message_length)

/-- Radio Control Protocol: little-endian service type and length, body. -/
def RadioControlProtocol.spec (b : Bytes) (q : Nat) : Parsed RadioControlProtocol :=
  upTo b (q + 4) <|
  next b (bodySpec (u16le b q) (u16le b (q + 2)) b (q + 4)) fun data e =>
  .ok ({ service_type := resolveEnum _ (u16le b q)
         message_length := u16le b (q + 2)
         data }, e)

/-! ### Radio Registration Service -/

/-- Radio Registration Service: 8 bytes; a result byte follows an acknowledgement (80, 82), and 4 bytes of
valid time follow the registration acknowledgement (80). -/
def RadioRegistrationService.spec (b : Bytes) (q : Nat) : Parsed RadioRegistrationService :=
  fixedAt b q [0x00] "/seq/0" <|
  upTo b (q + 8) <|
  if u8 b (q + 1) = 0x80 then
    upTo b (q + 13) <|
    .ok ({ opcode := slice b q 1
           rrs_type := resolveEnum _ (u8 b (q + 1))
           message_length := u16be b (q + 2)
           radio_ip := .spec b (q + 4)
           result := some (u8 b (q + 8))
           valid_time := some (u32be b (q + 9)) }, q + 13)
  else if u8 b (q + 1) = 0x82 then
    upTo b (q + 9) <|
    .ok ({ opcode := slice b q 1
           rrs_type := resolveEnum _ (u8 b (q + 1))
           message_length := u16be b (q + 2)
           radio_ip := .spec b (q + 4)
           result := some (u8 b (q + 8))
           valid_time := none }, q + 9)
  else
    .ok ({ opcode := slice b q 1
           rrs_type := resolveEnum _ (u8 b (q + 1))
           message_length := u16be b (q + 2)
           radio_ip := .spec b (q + 4)
           result := none
           valid_time := none }, q + 8)

/-! ### Telemetry Protocol -/

/-- VIO status: result, length, then that many bytes of UTF-16LE. -/
def TelemetryProtocol.VioExtendedStatus.spec (b : Bytes) (q : Nat) : Parsed TelemetryProtocol.VioExtendedStatus :=
  upTo b (q + 3) <|
  textAt decodeUtf16le b (q + 3) (u16be b (q + 1)) fun message =>
  .ok ({ result := resolveEnum _ (u8 b q)
         message_length := u16be b (q + 1)
         message }, q + 3 + u16be b (q + 1))

/-- Extended status report: 11 bytes and a VIO status. -/
def TelemetryProtocol.ExtendedStatusReport.spec (b : Bytes) (q : Nat) :
    Parsed TelemetryProtocol.ExtendedStatusReport :=
  upTo b (q + 11) <|
  next b (VioExtendedStatus.spec b (q + 11)) fun status e =>
  .ok ({ source_ip := .spec b q
         target_ip := .spec b (q + 4)
         pc_flag := resolveEnum _ (u8 b (q + 8))
         call_type := resolveEnum _ (u8 b (q + 9))
         vio_select := slice b (q + 10) 1
         result_messages := status }, e)

/-- Telemetry body by 16 bit opcode. -/
def TelemetryProtocol.bodySpec (opcode : Nat) (b : Bytes) (q : Nat) : Parsed (Option TelemetryProtocol.DataUnion) :=
  if opcode = 0xA001 then (whole 11 StandardStatusRequest.spec b q).as fun x => some (.standardStatusRequest x)
  else if opcode = 0xB081 then (whole 12 RemoteControlAnswer.spec b q).as fun x => some (.remoteControlAnswer x)
  else if opcode = 0xA082 then (ExtendedStatusReport.spec b q).as fun x => some (.extendedStatusReport x)
  else if opcode = 0xB001 then (whole 12 RemoteControlRequest.spec b q).as fun x => some (.remoteControlRequest x)
  else if opcode = 0xA081 then (whole 12 StandardStatusReport.spec b q).as fun x => some (.standardStatusReport x)
  else .ok (none, q)

/-- Telemetry Protocol: 4 byte header and body. The opcode that selects the body is the one at offset 0 of
the whole data, not at the start `q` of the message. -/
def TelemetryProtocol.spec (b : Bytes) (q : Nat) : Parsed TelemetryProtocol :=
  upTo b (q + 4) <|
  next b (bodySpec (u16be b 0) b (q + 4)) fun data e =>
  .ok ({ service_type_opcode := resolveEnum _ (u8 b q)
         specific_service_opcode := u8 b (q + 1)
         message_length := u16be b (q + 2)
         m_specific_service := resolveEnum _ (u16be b 0)
         data }, e)

/-! ### Text Message Protocol -/

/-- The option text at offset `e`, present iff an option length was given. -/
def TextMessageProtocol.optionSpec (option_len : Option Nat) (b : Bytes) (e : Nat) : Parsed (Option PyStr) :=
  match option_len with
  | some n => textAt decodeUtf16le b e n fun t => .ok (some t, e + n)
  | none => .ok (none, e)

/-- Bytes taken up by the option: its length field and its text. -/
def TextMessageProtocol.optionSize : Option Nat → Nat
  | some n => n + 2
  | none => 0

/-- Text message from the request id on (offset `o`), for a message starting at `q`. -/
def TextMessageProtocol.restSpec (option_len : Option Nat) (b : Bytes) (q o : Nat) : Parsed TextMessageProtocol :=
  let mk := fun source_ip result tmdata option_field =>
    ({ ack_flag := resolveEnum _ (bitsAt b (8 * q) 1)
       option_flag := resolveEnum _ (bitsAt b (8 * q + 1) 1)
       reserved := bitsAt b (8 * q + 2) 6
       service_type := resolveEnum _ (u8 b (q + 1))
       message_length := u16be b (q + 2)
       option_field_len := option_len
       request_id := u32be b o
       destination_ip := .spec b (o + 4)
       source_ip, result, tmdata, option_field } : TextMessageProtocol)
  if u8 b (q + 1) = 0xA1 ∨ u8 b (q + 1) = 0xB1 then
    -- private or group message: source address, then the text
    upTo b (o + 12) <|
    sizedAt b (o + 12) (u16be b (q + 2) - 12 - optionSize option_len) fun raw =>
    decoded (decodeUtf16le raw) fun text =>
    next b (optionSpec option_len b (o + 12 + (u16be b (q + 2) - 12 - optionSize option_len))) fun option_field e =>
    .ok (mk (some (.spec b (o + 8))) none (some text) option_field, e)
  else if u8 b (q + 1) = 0xA2 then
    -- private acknowledgement: source address and result
    upTo b (o + 13) <|
    next b (optionSpec option_len b (o + 13)) fun option_field e =>
    .ok (mk (some (.spec b (o + 8))) (some (resolveEnum _ (u8 b (o + 12)))) none option_field, e)
  else if u8 b (q + 1) = 0xB2 then
    -- group acknowledgement: result only
    upTo b (o + 9) <|
    next b (optionSpec option_len b (o + 9)) fun option_field e =>
    .ok (mk none (some (resolveEnum _ (u8 b (o + 8)))) none option_field, e)
  else
    upTo b (o + 12) <|
    next b (optionSpec option_len b (o + 12)) fun option_field e =>
    .ok (mk (some (.spec b (o + 8))) none none option_field, e)

/-- Text message: flags, service type, length, option length iff the option bit (second bit) is set. -/
def TextMessageProtocol.spec (b : Bytes) (q : Nat) : Parsed TextMessageProtocol :=
  upTo b (q + 4) <|
  if bitsAt b (8 * q + 1) 1 = 1 then
    upTo b (q + 6) <|
    restSpec (some (u16be b (q + 4))) b q (q + 6)
  else restSpec none b q (q + 4)

/-! ### Framing: HDAP, HRNP, HSTRP -/

/-- HDAP body by protocol number. -/
def HyteraDmrApplicationProtocol.bodySpec (protocol : Nat) (b : Bytes) (q : Nat) :
    Parsed (Option HyteraDmrApplicationProtocol.DataUnion) :=
  if protocol = 0x11 then (RadioRegistrationService.spec b q).as fun x => some (.radioRegistrationService x)
  else if protocol = 0x12 then (TelemetryProtocol.spec b q).as fun x => some (.telemetryProtocol x)
  else if protocol = 0x02 then (RadioControlProtocol.spec b q).as fun x => some (.radioControlProtocol x)
  else if protocol = 0x09 then (TextMessageProtocol.spec b q).as fun x => some (.textMessageProtocol x)
  else if protocol = 0x14 then (whole 11 DataDeliveryStates.spec b q).as fun x => some (.dataDeliveryStates x)
  else if protocol = 0x08 then (LocationProtocol.spec b q).as fun x => some (.locationProtocol x)
  else if protocol = 0x13 then (DataTransmitProtocol.spec b q).as fun x => some (.dataTransmitProtocol x)
  else .ok (none, q)

/-- HDAP frame: flag bit and 7 bit protocol number, message, checksum, footer 03. -/
def HyteraDmrApplicationProtocol.spec (b : Bytes) (q : Nat) : Parsed HyteraDmrApplicationProtocol :=
  upTo b (q + 1) <|
  next b (bodySpec (bitsAt b (8 * q + 1) 7) b (q + 1)) fun data e =>
  fixedAt b (e + 1) [0x03] "/seq/4" <|
  .ok ({ is_reliable_message := flagAt b (8 * q)
         message_header := resolveEnum _ (bitsAt b (8 * q + 1) 7)
         data
         checksum := u8 b e
         message_footer := [0x03] }, e + 2)

/-- HRNP packet: 7E, 11 more header bytes, and an HDAP frame iff the opcode is 0. -/
def HyteraRadioNetworkProtocol.spec (b : Bytes) (q : Nat) : Parsed HyteraRadioNetworkProtocol :=
  fixedAt b q [0x7e] "/seq/0" <|
  upTo b (q + 12) <|
  next b (optPart (u8 b (q + 3) = 0) (HyteraDmrApplicationProtocol.spec b (q + 12)) (q + 12)) fun data e =>
  .ok ({ header_identifier := [0x7e]
         version := u8 b (q + 1)
         block := u8 b (q + 2)
         opcode := resolveEnum _ (u8 b (q + 3))
         source_id := u8 b (q + 4)
         destination_id := u8 b (q + 5)
         packet_number := u16be b (q + 6)
         hrnp_packet_length := u16be b (q + 8)
         checksum := u16be b (q + 10)
         data }, e)

/-- HSTRP option: continuation bit, 7 bit command, length, payload. -/
def HyteraSimpleTransportReliabilityProtocol.Option.spec (b : Bytes) (q : Nat) :
    Parsed HyteraSimpleTransportReliabilityProtocol.Option :=
  upTo b (q + 2) <|
  upTo b (q + 2 + u8 b (q + 1)) <|
  .ok ({ expect_more_options := flagAt b (8 * q)
         command := resolveEnum _ (bitsAt b (8 * q + 1) 7)
         len_option_payload := u8 b (q + 1)
         option_payload := slice b (q + 2) (u8 b (q + 1)) }, q + 2 + u8 b (q + 1))

/-- HSTRP packet: 32 42, version, 2 reserved bits and six flags (option, reject, close, connect, heartbeat,
ack), sequence number; then options, HDAP frames, and whatever is left. -/
def HyteraSimpleTransportReliabilityProtocol.spec (b : Bytes) (q : Nat) :
    Parsed HyteraSimpleTransportReliabilityProtocol :=
  fixedAt b q [0x32, 0x42] "/seq/0" <|
  upTo b (q + 6) <|
  next b (optPart (q + 6 ≠ b.length ∧ ¬ flagAt b (8 * q + 30) ∧ flagAt b (8 * q + 26))
      (chain Option.spec (fun o _ => !o.expect_more_options) b (q + 6)) (q + 6)) fun options e1 =>
  next b (optPart (e1 ≠ b.length ∧ ¬ flagAt b (8 * q + 27) ∧ ¬ flagAt b (8 * q + 28) ∧ ¬ flagAt b (8 * q + 29))
      (toEnd HyteraDmrApplicationProtocol.spec b e1) e1) fun data e2 =>
  .ok ({ header := [0x32, 0x42]
         version := u8 b (q + 2)
         reserved := bitsAt b (8 * q + 24) 2
         has_option := flagAt b (8 * q + 26)
         is_reject := flagAt b (8 * q + 27)
         is_close := flagAt b (8 * q + 28)
         is_connect := flagAt b (8 * q + 29)
         is_heartbeat := flagAt b (8 * q + 30)
         is_ack := flagAt b (8 * q + 31)
         sequence_number := u16be b (q + 4)
         options
         data
         extra_data := if e2 = b.length then none else some (b.drop e2) }, b.length)

/-! ### IP Site Connect -/

/-- Keepalive: one byte 00. -/
def IpSiteConnectHeartbeat.Keepalive.spec (b : Bytes) (q : Nat) : Parsed IpSiteConnectHeartbeat.Keepalive :=
  fixedAt b q [0x00] "/types/keepalive/seq/0" <|
  .ok (⟨[0x00]⟩, q + 1)

/-- Ping/pong: 20 bytes, all fixed but the one at offset 12. -/
def IpSiteConnectHeartbeat.PingPong.spec (b : Bytes) (q : Nat) : Parsed IpSiteConnectHeartbeat.PingPong :=
  fixedAt b q [0x5a, 0x5a, 0x5a, 0x5a] "/types/ping_pong/seq/0" <|
  fixedAt b (q + 4) [0x0a, 0x00, 0x00, 0x00, 0x14] "/types/ping_pong/seq/1" <|
  fixedAt b (q + 9) [0x00, 0x00, 0x00] "/types/ping_pong/seq/2" <|
  fixedAt b (q + 13) [0x5a, 0x59, 0x5a, 0x00, 0x00, 0x00, 0x00] "/types/ping_pong/seq/4" <|
  .ok ({ header := [0x5a, 0x5a, 0x5a, 0x5a]
         heartbeat_identitier := [0x0a, 0x00, 0x00, 0x00, 0x14]
         nullbytes := [0x00, 0x00, 0x00]
         heartbeat_seq := u8 b (q + 12)
         tail := [0x5a, 0x59, 0x5a, 0x00, 0x00, 0x00, 0x00] }, q + 20)

/-- Heartbeat: the kind depends only on the size of the whole data. -/
def IpSiteConnectHeartbeat.spec (b : Bytes) (q : Nat) : Parsed IpSiteConnectHeartbeat :=
  if b.length = 1 then (Keepalive.spec b q).as fun x => ⟨.keepalive x⟩
  else if b.length = 20 then (PingPong.spec b q).as fun x => ⟨.pingPong x⟩
  else .ok (⟨.unknown ⟨b.drop q⟩⟩, b.length)

/-- IPSC packet: 72 bytes with 5A5A at offset 2, and everything beyond as extra data. -/
def IpSiteConnectProtocol.spec (b : Bytes) (q : Nat) : Parsed IpSiteConnectProtocol :=
  fixedAt b (q + 2) [0x5a, 0x5a] "/seq/1" <|
  upTo b (q + 72) <|
  .ok ({ source_port := slice b q 2
         fixed_header := [0x5a, 0x5a]
         sequence_number := u8 b (q + 4)
         reserved_3 := slice b (q + 5) 3
         packet_type := resolveEnum _ (u8 b (q + 8))
         reserved_7a := slice b (q + 9) 7
         timeslot_raw := resolveEnum _ (u16be b (q + 16))
         slot_type := resolveEnum _ (u16be b (q + 18))
         color_code_raw := u16le b (q + 20)
         frame_type := resolveEnum _ (u16be b (q + 22))
         reserved_2a := slice b (q + 24) 2
         ipsc_payload := slice b (q + 26) 34
         reserved_2b := slice b (q + 60) 2
         call_type := resolveEnum _ (u8 b (q + 62))
         destination_radio_id_raw := u32le b (q + 63)
         source_radio_id_raw := u32le b (q + 67)
         reserved_1b := u8 b (q + 71)
         extra_data := if q + 72 = b.length then none else some (b.drop (q + 72)) }, b.length)

/-! ### RTP -/

/-- RTP fixed header: 12 bytes, version 2, then `num_csrc` 32 bit identifiers. -/
def RealTimeTransportProtocol.FixedHeader.spec (b : Bytes) (q : Nat) :
    Parsed RealTimeTransportProtocol.FixedHeader :=
  upTo b (q + 1) <|
  if bitsAt b (8 * q) 2 = 2 then
    upTo b (q + 12) <|
    upTo b (q + 12 + 4 * bitsAt b (8 * q + 4) 4) <|
    .ok ({ version := 2
           padding := flagAt b (8 * q + 2)
           extension := flagAt b (8 * q + 3)
           num_csrc := bitsAt b (8 * q + 4) 4
           marker := flagAt b (8 * q + 8)
           payload_type := bitsAt b (8 * q + 9) 7
           sequence_number := u16be b (q + 2)
           timestamp := u32be b (q + 4)
           ssrc := u32be b (q + 8)
           csrc := (List.range (bitsAt b (8 * q + 4) 4)).map fun i => u32be b (q + 12 + 4 * i) },
         q + 12 + 4 * bitsAt b (8 * q + 4) 4)
  else .error (.validation "/types/fixed_header/seq/0")

/-- Number of padding bytes: the last byte of the data iff the padding flag is set. -/
def RealTimeTransportProtocol.padLen (padding : Bool) (b : Bytes) : Nat :=
  if padding then u8 b (b.length - 1) else 0

/-- RTP packet: fixed header, 18 byte extension iff flagged, audio, padding iff flagged. -/
def RealTimeTransportProtocol.spec (b : Bytes) (q : Nat) : Parsed RealTimeTransportProtocol :=
  next b (FixedHeader.spec b q) fun h e1 =>
  next b (optPart h.extension (whole 18 HeaderExtension.spec b e1) e1) fun x e2 =>
  if b.length < e2 + padLen h.padding b then .error .value
  else
    .ok ({ fixed_header := h
           header_extension := x
           audio_data := slice b e2 (b.length - e2 - padLen h.padding b)
           m_len_padding := padLen h.padding b
           padding := if h.padding then some (b.drop (b.length - padLen h.padding b)) else none }, b.length)

end Dmr.Hytera
