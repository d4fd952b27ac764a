import Verif.Props.SourceObjects
import Verif.Props.Decoders
import Verif.Props.DecodersTransport
import Verif.Props.DecodersEtsi
import Verif.Props.DecodersEtsi2
import Verif.Props.DecodersHomebrew
import Verif.Props.DecodersMotorola
/-
C65: what C53 and C57 say, about runs of the source: for which octets running `from_bytes` returns an object, and how it looks. `x` is the
message as it should be understood, `toPy` lists its attributes (Verif/Model/Tools/PyView).
-/

set_option autoImplicit false

namespace Dmr.Wire

open Spec Py

section

open Hytera

/-- C65. `LocationProtocol.from_bytes(b)` returns `x` exactly if `b` begins with a location message that means `x`, or with the
header of an unknown one. -/
theorem C65_location (b : Bytes) (x : LocationProtocol) :
    Gives "Hytera.LocationProtocol" b x.toPy ↔
      (∃ (msg : Lp) (message_length : BitVec 16) (rest : Bytes), b = msg.bytes message_length ++ rest ∧ x = msg.message message_length) ∨
      ∃ (opcode message_length : BitVec 16) (rest : Bytes), opcode.toNat ∉ Lp.opcodes ∧ b = pack f[opcode, message_length] ++ rest ∧
        x = unknownLocation opcode message_length :=
  (C64_gives "Hytera.LocationProtocol" ⟨_, LocationProtocol.read, LocationProtocol.toPy⟩ (List.mem_of_getElem? (i := 39) rfl) b x).trans (C53_location b x)

/-- C65. registration messages. -/
theorem C65_registration (b : Bytes) (x : RadioRegistrationService) :
    Gives "Hytera.RadioRegistrationService" b x.toPy ↔ ∃ (msg : Rrs) (rest : Bytes), b = msg.bytes ++ rest ∧ x = msg.message :=
  (C64_gives "Hytera.RadioRegistrationService" ⟨_, RadioRegistrationService.read, RadioRegistrationService.toPy⟩ (List.mem_of_getElem? (i := 52) rfl) b x).trans (C53_registration b x)

/-- C65. delivery states. -/
theorem C65_delivery (b : Bytes) (x : DataDeliveryStates) :
    Gives "Hytera.DataDeliveryStates" b x.toPy ↔ ∃ (msg : Dds) (rest : Bytes), b = msg.bytes ++ rest ∧ x = msg.message :=
  (C64_gives "Hytera.DataDeliveryStates" ⟨_, DataDeliveryStates.read, DataDeliveryStates.toPy⟩ (List.mem_of_getElem? (i := 0) rfl) b x).trans (C53_delivery b x)

/-- C65. telemetry messages. -/
theorem C65_telemetry (b : Bytes) (x : TelemetryProtocol) :
    Gives "Hytera.TelemetryProtocol" b x.toPy ↔
      (∃ (msg : Tp) (message_length : BitVec 16) (rest : Bytes), b = msg.bytes message_length ++ rest ∧ x = msg.message message_length) ∨
      ∃ (service specific : BitVec 8) (message_length : BitVec 16) (rest : Bytes),
        256 * service.toNat + specific.toNat ∉ Tp.opcodes ∧ b = pack f[service, specific, message_length] ++ rest ∧
        x = unknownTelemetry service specific message_length :=
  (C64_gives "Hytera.TelemetryProtocol" ⟨_, TelemetryProtocol.read, TelemetryProtocol.toPy⟩ (List.mem_of_getElem? (i := 62) rfl) b x).trans (C53_telemetry b x)

/-- C65. file transfer messages. -/
theorem C65_transmit (b : Bytes) (x : DataTransmitProtocol) :
    Gives "Hytera.DataTransmitProtocol" b x.toPy ↔
      (∃ (service_type : BitVec 8) (msg : Dtp) (rest : Bytes), b = msg.bytes service_type ++ rest ∧ x = msg.message service_type) ∨
      ∃ (service_type kind : BitVec 8) (message_length : BitVec 16) (rest : Bytes), kind.toNat ∉ Dtp.kinds ∧
        b = pack f[service_type, kind, message_length] ++ rest ∧ x = unknownTransmit service_type kind message_length :=
  (C64_gives "Hytera.DataTransmitProtocol" ⟨_, DataTransmitProtocol.read, DataTransmitProtocol.toPy⟩ (List.mem_of_getElem? (i := 7) rfl) b x).trans (C53_transmit b x)

/-- C65. radio control messages. -/
theorem C65_control (b : Bytes) (x : RadioControlProtocol) :
    Gives "Hytera.RadioControlProtocol" b x.toPy ↔ ∃ (msg : Rcp) (rest : Bytes), b = msg.bytes ++ rest ∧ x = msg.message :=
  (C64_gives "Hytera.RadioControlProtocol" ⟨_, RadioControlProtocol.read, RadioControlProtocol.toPy⟩ (List.mem_of_getElem? (i := 49) rfl) b x).trans (C53_control b x)

/-- C65. text messages. -/
theorem C65_text (b : Bytes) (x : TextMessageProtocol) :
    Gives "Hytera.TextMessageProtocol" b x.toPy ↔ ∃ (msg : Tmp) (rest : Bytes), b = msg.bytes ++ rest ∧ x = msg.message :=
  (C64_gives "Hytera.TextMessageProtocol" ⟨_, TextMessageProtocol.read, TextMessageProtocol.toPy⟩ (List.mem_of_getElem? (i := 63) rfl) b x).trans (C53_text b x)

/-- C65. frames. -/
theorem C65_frame (b : Bytes) (x : HyteraDmrApplicationProtocol) :
    Gives "Hytera.HyteraDmrApplicationProtocol" b x.toPy ↔
      ∃ (f : AnyFrame) (rest : Bytes), b = f.bytes ++ rest ∧ x = f.obj (u16be f.bytes 0) :=
  (C64_gives "Hytera.HyteraDmrApplicationProtocol" ⟨_, HyteraDmrApplicationProtocol.read, HyteraDmrApplicationProtocol.toPy⟩ (List.mem_of_getElem? (i := 11) rfl) b x).trans (C53_frame b x)

/-- C65. HRNP packets. -/
theorem C65_hrnp (b : Bytes) (x : HyteraRadioNetworkProtocol) :
    Gives "Hytera.HyteraRadioNetworkProtocol" b x.toPy ↔ ∃ (p : Hrnp) (rest : Bytes), b = p.bytes ++ rest ∧ x = p.obj :=
  (C64_gives "Hytera.HyteraRadioNetworkProtocol" ⟨_, HyteraRadioNetworkProtocol.read, HyteraRadioNetworkProtocol.toPy⟩ (List.mem_of_getElem? (i := 12) rfl) b x).trans (C53_hrnp b x)

/-- C65. HSTRP packets. -/
theorem C65_hstrp (b : Bytes) (x : HyteraSimpleTransportReliabilityProtocol) :
    Gives "Hytera.HyteraSimpleTransportReliabilityProtocol" b x.toPy ↔ ∃ p : Hstrp, b = p.bytes ∧ x = p.obj :=
  (C64_gives "Hytera.HyteraSimpleTransportReliabilityProtocol" ⟨_, HyteraSimpleTransportReliabilityProtocol.read, HyteraSimpleTransportReliabilityProtocol.toPy⟩ (List.mem_of_getElem? (i := 14) rfl) b x).trans (C53_hstrp b x)

end

section

open Hytera

/-- C65. `IpSiteConnectProtocol.from_bytes(b)` returns `x` exactly if `b` is a packet that means `x`, with any octets after it, which
are its extra data. -/
theorem C65_ipsc (b : Bytes) (x : IpSiteConnectProtocol) :
    Gives "Hytera.IpSiteConnectProtocol" b x.toPy ↔ ∃ (p : Ipsc) (rest : Bytes), b = p.bytes ++ rest ∧ x = p.obj rest :=
  (C64_gives "Hytera.IpSiteConnectProtocol" ⟨_, IpSiteConnectProtocol.read, IpSiteConnectProtocol.toPy⟩ (List.mem_of_getElem? (i := 20) rfl) b x).trans (C53_ipsc b x)

/-- C65. `IpSiteConnectHeartbeat.from_bytes(b)` returns `x` exactly if `b` is a heartbeat that means `x`. -/
theorem C65_heartbeat (b : Bytes) (x : IpSiteConnectHeartbeat) :
    Gives "Hytera.IpSiteConnectHeartbeat" b x.toPy ↔ ∃ p : Heartbeat, b = p.bytes ∧ x = p.obj :=
  (C64_gives "Hytera.IpSiteConnectHeartbeat" ⟨_, IpSiteConnectHeartbeat.read, IpSiteConnectHeartbeat.toPy⟩ (List.mem_of_getElem? (i := 19) rfl) b x).trans (C53_heartbeat b x)

/-- C65. `RealTimeTransportProtocol.from_bytes(b)` returns `x` exactly if `b` is an RTP packet that means `x`. -/
theorem C65_rtp (b : Bytes) (x : RealTimeTransportProtocol) :
    Gives "Hytera.RealTimeTransportProtocol" b x.toPy ↔ ∃ p : Rtp, p.ok ∧ b = p.bytes ∧ x = p.obj :=
  (C64_gives "Hytera.RealTimeTransportProtocol" ⟨_, RealTimeTransportProtocol.read, RealTimeTransportProtocol.toPy⟩ (List.mem_of_getElem? (i := 55) rfl) b x).trans (C53_rtp b x)

end

section

open Etsi

/-- C65. `DmrCsbk.from_bytes(b)` returns `x` exactly if `b` begins with a block that means `x`, or with the two octets of a block
with an opcode that is not in use. -/
theorem C65_csbk (b : Bytes) (x : DmrCsbk) :
    Gives "Etsi.DmrCsbk" b x.toPy ↔
      (∃ (last protect : Bool) (feature_set : BitVec 8) (msg : Csbk) (rest : Bytes),
        b = msg.bytes last protect feature_set ++ rest ∧ x = msg.message last protect feature_set) ∨
      ∃ (last protect : Bool) (opcode : BitVec 6) (feature_set : BitVec 8) (rest : Bytes), opcode.toNat ∉ Csbk.opcodes ∧
        b = pack f[last, protect, opcode, feature_set] ++ rest ∧
        x = { last_block := last, protect_flag := protect, csbk_opcode := resolveEnum _ opcode.toNat,
              feature_set_id := feature_set.toNat, csbk_data := none } :=
  (C64_gives "Etsi.DmrCsbk" ⟨_, DmrCsbk.read, DmrCsbk.toPy⟩ (List.mem_of_getElem? (i := 71) rfl) b x).trans (C57_csbk b x)

/-- C65. `FullLinkControl.from_bytes(b)` returns `x` exactly if `b` is a message and one of its ends that mean `x`, or the two
octets of a message with an opcode that is not in use and one of its ends. -/
theorem C65_flc (b : Bytes) (x : FullLinkControl) :
    Gives "Etsi.FullLinkControl" b x.toPy ↔
      (∃ (protect reserved : Bool) (feature_set : BitVec 8) (msg : Flc) (last : FlcEnd),
        b = msg.bytes protect reserved feature_set ++ last.bytes ∧ x = msg.message protect reserved feature_set last) ∨
      ∃ (protect reserved : Bool) (opcode : BitVec 6) (feature_set : BitVec 8) (last : FlcUnknownEnd), opcode.toNat ∉ Flc.opcodes ∧
        b = pack f[protect, reserved, opcode, feature_set] ++ last.bytes ∧
        x = unknownFlc protect reserved opcode feature_set last :=
  (C64_gives "Etsi.FullLinkControl" ⟨_, FullLinkControl.read, FullLinkControl.toPy⟩ (List.mem_of_getElem? (i := 103) rfl) b x).trans (C57_flc b x)

/-- C65. `UdpIpv4CompressedHeader.from_bytes(b)` returns `x` exactly if `b` is a header with its user data that means `x`. -/
theorem C65_udp (b : Bytes) (x : DmrIpUdp.UdpIpv4CompressedHeader) :
    Gives "Etsi.DmrIpUdp.UdpIpv4CompressedHeader" b x.toPy ↔ ∃ msg : Udp, b = msg.bytes ∧ x = msg.obj :=
  (C64_gives "Etsi.DmrIpUdp.UdpIpv4CompressedHeader" ⟨_, DmrIpUdp.UdpIpv4CompressedHeader.read, DmrIpUdp.UdpIpv4CompressedHeader.toPy⟩ (List.mem_of_getElem? (i := 96) rfl) b x).trans (C57_udp b x)

end

section

open Etsi

/-- C65. `DmrData.Rate1LastBlockUnconfirmed`, 24 octets. -/
theorem C65_block_rate1_last_block_unconfirmed (b : Bytes) (x : DmrData.Rate1LastBlockUnconfirmed) :
    Gives "Etsi.DmrData.Rate1LastBlockUnconfirmed" b x.toPy ↔
      ∃ (user_data : Octets 20) (message_crc32 : Octets 4) (rest : Bytes),
        b = pack f[user_data, message_crc32] ++ rest ∧
        x = { user_data := user_data.val, message_crc32 := message_crc32.val } :=
  (C64_gives "Etsi.DmrData.Rate1LastBlockUnconfirmed" ⟨_, DmrData.Rate1LastBlockUnconfirmed.read, DmrData.Rate1LastBlockUnconfirmed.toPy⟩ (List.mem_of_getElem? (i := 72) rfl) b x).trans (C57_block_rate1_last_block_unconfirmed b x)

/-- C65. `DmrData.Rate12LastBlockConfirmed`, 12 octets. -/
theorem C65_block_rate12_last_block_confirmed (b : Bytes) (x : DmrData.Rate12LastBlockConfirmed) :
    Gives "Etsi.DmrData.Rate12LastBlockConfirmed" b x.toPy ↔
      ∃ (data_block_serial_number : BitVec 7) (crc9 : BitVec 9) (user_data : Octets 6) (message_crc32 : Octets 4) (rest :
        Bytes),
        b = pack f[data_block_serial_number, crc9, user_data, message_crc32] ++ rest ∧
        x = { data_block_serial_number := data_block_serial_number.toNat, crc9 := crc9.toNat, user_data := user_data.val,
              message_crc32 := message_crc32.val } :=
  (C64_gives "Etsi.DmrData.Rate12LastBlockConfirmed" ⟨_, DmrData.Rate12LastBlockConfirmed.read, DmrData.Rate12LastBlockConfirmed.toPy⟩ (List.mem_of_getElem? (i := 73) rfl) b x).trans (C57_block_rate12_last_block_confirmed b x)

/-- C65. `DmrData.Rate12Confirmed`, 12 octets. -/
theorem C65_block_rate12_confirmed (b : Bytes) (x : DmrData.Rate12Confirmed) :
    Gives "Etsi.DmrData.Rate12Confirmed" b x.toPy ↔
      ∃ (data_block_serial_number : BitVec 7) (crc9 : BitVec 9) (user_data : Octets 10) (rest : Bytes),
        b = pack f[data_block_serial_number, crc9, user_data] ++ rest ∧
        x = { data_block_serial_number := data_block_serial_number.toNat, crc9 := crc9.toNat, user_data := user_data.val }
              :=
  (C64_gives "Etsi.DmrData.Rate12Confirmed" ⟨_, DmrData.Rate12Confirmed.read, DmrData.Rate12Confirmed.toPy⟩ (List.mem_of_getElem? (i := 74) rfl) b x).trans (C57_block_rate12_confirmed b x)

/-- C65. `DmrData.Rate34LastBlockUnconfirmed`, 18 octets. -/
theorem C65_block_rate34_last_block_unconfirmed (b : Bytes) (x : DmrData.Rate34LastBlockUnconfirmed) :
    Gives "Etsi.DmrData.Rate34LastBlockUnconfirmed" b x.toPy ↔
      ∃ (user_data : Octets 14) (message_crc32 : Octets 4) (rest : Bytes),
        b = pack f[user_data, message_crc32] ++ rest ∧
        x = { user_data := user_data.val, message_crc32 := message_crc32.val } :=
  (C64_gives "Etsi.DmrData.Rate34LastBlockUnconfirmed" ⟨_, DmrData.Rate34LastBlockUnconfirmed.read, DmrData.Rate34LastBlockUnconfirmed.toPy⟩ (List.mem_of_getElem? (i := 75) rfl) b x).trans (C57_block_rate34_last_block_unconfirmed b x)

/-- C65. `DmrData.Rate1LastBlockConfirmed`, 24 octets. -/
theorem C65_block_rate1_last_block_confirmed (b : Bytes) (x : DmrData.Rate1LastBlockConfirmed) :
    Gives "Etsi.DmrData.Rate1LastBlockConfirmed" b x.toPy ↔
      ∃ (data_block_serial_number : BitVec 7) (crc9 : BitVec 9) (user_data : Octets 18) (message_crc32 : Octets 4) (rest :
        Bytes),
        b = pack f[data_block_serial_number, crc9, user_data, message_crc32] ++ rest ∧
        x = { data_block_serial_number := data_block_serial_number.toNat, crc9 := crc9.toNat, user_data := user_data.val,
              message_crc32 := message_crc32.val } :=
  (C64_gives "Etsi.DmrData.Rate1LastBlockConfirmed" ⟨_, DmrData.Rate1LastBlockConfirmed.read, DmrData.Rate1LastBlockConfirmed.toPy⟩ (List.mem_of_getElem? (i := 76) rfl) b x).trans (C57_block_rate1_last_block_confirmed b x)

/-- C65. `DmrData.Rate1Unconfirmed`, 24 octets. -/
theorem C65_block_rate1_unconfirmed (b : Bytes) (x : DmrData.Rate1Unconfirmed) :
    Gives "Etsi.DmrData.Rate1Unconfirmed" b x.toPy ↔
      ∃ (user_data : Octets 24) (rest : Bytes),
        b = pack f[user_data] ++ rest ∧
        x = { user_data := user_data.val } :=
  (C64_gives "Etsi.DmrData.Rate1Unconfirmed" ⟨_, DmrData.Rate1Unconfirmed.read, DmrData.Rate1Unconfirmed.toPy⟩ (List.mem_of_getElem? (i := 77) rfl) b x).trans (C57_block_rate1_unconfirmed b x)

/-- C65. `DmrData.UdtLastBlock`, 12 octets. -/
theorem C65_block_udt_last_block (b : Bytes) (x : DmrData.UdtLastBlock) :
    Gives "Etsi.DmrData.UdtLastBlock" b x.toPy ↔
      ∃ (user_data : Octets 10) (message_crc16 : Octets 2) (rest : Bytes),
        b = pack f[user_data, message_crc16] ++ rest ∧
        x = { user_data := user_data.val, message_crc16 := message_crc16.val } :=
  (C64_gives "Etsi.DmrData.UdtLastBlock" ⟨_, DmrData.UdtLastBlock.read, DmrData.UdtLastBlock.toPy⟩ (List.mem_of_getElem? (i := 78) rfl) b x).trans (C57_block_udt_last_block b x)

/-- C65. `DmrData.Rate34Confirmed`, 18 octets. -/
theorem C65_block_rate34_confirmed (b : Bytes) (x : DmrData.Rate34Confirmed) :
    Gives "Etsi.DmrData.Rate34Confirmed" b x.toPy ↔
      ∃ (data_block_serial_number : BitVec 7) (crc9 : BitVec 9) (user_data : Octets 16) (rest : Bytes),
        b = pack f[data_block_serial_number, crc9, user_data] ++ rest ∧
        x = { data_block_serial_number := data_block_serial_number.toNat, crc9 := crc9.toNat, user_data := user_data.val }
              :=
  (C64_gives "Etsi.DmrData.Rate34Confirmed" ⟨_, DmrData.Rate34Confirmed.read, DmrData.Rate34Confirmed.toPy⟩ (List.mem_of_getElem? (i := 79) rfl) b x).trans (C57_block_rate34_confirmed b x)

/-- C65. `DmrData.Rate34LastBlockConfirmed`, 18 octets. -/
theorem C65_block_rate34_last_block_confirmed (b : Bytes) (x : DmrData.Rate34LastBlockConfirmed) :
    Gives "Etsi.DmrData.Rate34LastBlockConfirmed" b x.toPy ↔
      ∃ (data_block_serial_number : BitVec 7) (crc9 : BitVec 9) (user_data : Octets 12) (message_crc32 : Octets 4) (rest :
        Bytes),
        b = pack f[data_block_serial_number, crc9, user_data, message_crc32] ++ rest ∧
        x = { data_block_serial_number := data_block_serial_number.toNat, crc9 := crc9.toNat, user_data := user_data.val,
              message_crc32 := message_crc32.val } :=
  (C64_gives "Etsi.DmrData.Rate34LastBlockConfirmed" ⟨_, DmrData.Rate34LastBlockConfirmed.read, DmrData.Rate34LastBlockConfirmed.toPy⟩ (List.mem_of_getElem? (i := 80) rfl) b x).trans (C57_block_rate34_last_block_confirmed b x)

/-- C65. `DmrData.Rate34Unconfirmed`, 18 octets. -/
theorem C65_block_rate34_unconfirmed (b : Bytes) (x : DmrData.Rate34Unconfirmed) :
    Gives "Etsi.DmrData.Rate34Unconfirmed" b x.toPy ↔
      ∃ (user_data : Octets 18) (rest : Bytes),
        b = pack f[user_data] ++ rest ∧
        x = { user_data := user_data.val } :=
  (C64_gives "Etsi.DmrData.Rate34Unconfirmed" ⟨_, DmrData.Rate34Unconfirmed.read, DmrData.Rate34Unconfirmed.toPy⟩ (List.mem_of_getElem? (i := 81) rfl) b x).trans (C57_block_rate34_unconfirmed b x)

/-- C65. `DmrData.Rate12LastBlockUnconfirmed`, 12 octets. -/
theorem C65_block_rate12_last_block_unconfirmed (b : Bytes) (x : DmrData.Rate12LastBlockUnconfirmed) :
    Gives "Etsi.DmrData.Rate12LastBlockUnconfirmed" b x.toPy ↔
      ∃ (user_data : Octets 8) (message_crc32 : Octets 4) (rest : Bytes),
        b = pack f[user_data, message_crc32] ++ rest ∧
        x = { user_data := user_data.val, message_crc32 := message_crc32.val } :=
  (C64_gives "Etsi.DmrData.Rate12LastBlockUnconfirmed" ⟨_, DmrData.Rate12LastBlockUnconfirmed.read, DmrData.Rate12LastBlockUnconfirmed.toPy⟩ (List.mem_of_getElem? (i := 82) rfl) b x).trans (C57_block_rate12_last_block_unconfirmed b x)

/-- C65. `DmrData.Rate1Confirmed`, 24 octets. -/
theorem C65_block_rate1_confirmed (b : Bytes) (x : DmrData.Rate1Confirmed) :
    Gives "Etsi.DmrData.Rate1Confirmed" b x.toPy ↔
      ∃ (data_block_serial_number : BitVec 7) (crc9 : BitVec 9) (user_data : Octets 22) (rest : Bytes),
        b = pack f[data_block_serial_number, crc9, user_data] ++ rest ∧
        x = { data_block_serial_number := data_block_serial_number.toNat, crc9 := crc9.toNat, user_data := user_data.val }
              :=
  (C64_gives "Etsi.DmrData.Rate1Confirmed" ⟨_, DmrData.Rate1Confirmed.read, DmrData.Rate1Confirmed.toPy⟩ (List.mem_of_getElem? (i := 83) rfl) b x).trans (C57_block_rate1_confirmed b x)

/-- C65. `DmrData.Rate12Unconfirmed`, 12 octets. -/
theorem C65_block_rate12_unconfirmed (b : Bytes) (x : DmrData.Rate12Unconfirmed) :
    Gives "Etsi.DmrData.Rate12Unconfirmed" b x.toPy ↔
      ∃ (user_data : Octets 12) (rest : Bytes),
        b = pack f[user_data] ++ rest ∧
        x = { user_data := user_data.val } :=
  (C64_gives "Etsi.DmrData.Rate12Unconfirmed" ⟨_, DmrData.Rate12Unconfirmed.read, DmrData.Rate12Unconfirmed.toPy⟩ (List.mem_of_getElem? (i := 84) rfl) b x).trans (C57_block_rate12_unconfirmed b x)

/-- C65. `DmrDataHeader.DataHeaderShortRaw`, 12 octets. -/
theorem C65_header_short_raw (b : Bytes) (x : DmrDataHeader.DataHeaderShortRaw) :
    Gives "Etsi.DmrDataHeader.DataHeaderShortRaw" b x.toPy ↔
      ∃ (llid_destination_is_group response_requested : Bool) (appended_blocks_msb : BitVec 2) (format sap_identifier
        appended_blocks_lsb : BitVec 4) (llid_destination llid_source : BitVec 24) (source_port destination_port : BitVec 3)
        (selective_automatic_repeat_request full_message_flag : Bool) (bit_padding : BitVec 8) (crc : Octets 2) (rest :
        Bytes),
        b = pack f[llid_destination_is_group, response_requested, appended_blocks_msb, format, sap_identifier,
          appended_blocks_lsb, llid_destination, llid_source, source_port, destination_port,
          selective_automatic_repeat_request, full_message_flag, bit_padding, crc] ++ rest ∧
        x = { llid_destination_is_group := llid_destination_is_group, response_requested := response_requested,
              appended_blocks_msb := appended_blocks_msb.toNat, format := resolveEnum _ format.toNat, sap_identifier :=
              resolveEnum _ sap_identifier.toNat, appended_blocks_lsb := appended_blocks_lsb.toNat, llid_destination :=
              llid_destination.toNat, llid_source := llid_source.toNat, source_port := source_port.toNat, destination_port
              := destination_port.toNat, selective_automatic_repeat_request := selective_automatic_repeat_request,
              full_message_flag := full_message_flag, bit_padding := bit_padding.toNat, crc := crc.val } :=
  (C64_gives "Etsi.DmrDataHeader.DataHeaderShortRaw" ⟨_, DmrDataHeader.DataHeaderShortRaw.read, DmrDataHeader.DataHeaderShortRaw.toPy⟩ (List.mem_of_getElem? (i := 86) rfl) b x).trans (C57_header_short_raw b x)

end

section

open Homebrew

/-- C65. `Homebrew2015.from_bytes(b)` returns `x` exactly if `b` is a packet that means `x` (with any octets after it, if the packet
does not have to end with the datagram), or begins with four octets of text that are no command. -/
theorem C65_homebrew (b : Bytes) (x : Homebrew2015) :
    Gives "Homebrew.Homebrew2015" b x.toPy ↔
      (∃ (msg : Hb) (rest : Bytes), (msg.closed = true → rest = []) ∧ b = msg.bytes ++ rest ∧ x = msg.obj) ∨
      ∃ (command : Utf8 4) (rest : Bytes), command.val ∉ Hb.commands.map String.toList ∧
        b = encUtf8 command.val ++ rest ∧ x = { command_prefix := command.val, command_data := none } :=
  (C64_gives "Homebrew.Homebrew2015" ⟨_, Homebrew2015.read, Homebrew2015.toPy⟩ (List.mem_of_getElem? (i := 116) rfl) b x).trans (C57_homebrew b x)

/-- C65. `Mmdvm2020.from_bytes(b)` returns `x` exactly if `b` is a packet that means `x` (with any octets after it, if the packet
does not have to end with the datagram), or begins with four ASCII characters that are no command. -/
theorem C65_mmdvm (b : Bytes) (x : Mmdvm2020) :
    Gives "Homebrew.Mmdvm2020" b x.toPy ↔
      (∃ (msg : Mm) (rest : Bytes), (msg.closed = true → rest = []) ∧ b = msg.bytes ++ rest ∧ x = msg.obj) ∨
      ∃ (command : Ascii 4) (rest : Bytes), command.1 ∉ Mm.commands.map String.toList ∧
        b = command.bytes ++ rest ∧ x = { command_prefix := command.1, command_data := none } :=
  (C64_gives "Homebrew.Mmdvm2020" ⟨_, Mmdvm2020.read, Mmdvm2020.toPy⟩ (List.mem_of_getElem? (i := 133) rfl) b x).trans (C57_mmdvm b x)

end

section

open Motorola

/-- C65. `AutomaticRegistrationService.from_bytes(b)` returns `x` exactly if `b` is a message that means `x`, with any octets after
it, which are kept. -/
theorem C65_ars (b : Bytes) (x : AutomaticRegistrationService) :
    Gives "Motorola.AutomaticRegistrationService" b x.toPy ↔
      ∃ (size : BitVec 16) (msg : Ars) (rest : Bytes), b = msg.bytes size ++ rest ∧ x = msg.obj size rest :=
  (C64_gives "Motorola.AutomaticRegistrationService" ⟨_, AutomaticRegistrationService.read, AutomaticRegistrationService.toPy⟩ (List.mem_of_getElem? (i := 142) rfl) b x).trans (C57_ars b x)

/-- C65. Motorola's `TextMessageProtocol.from_bytes(b)` returns `x` exactly if `b` is a message that means `x`, with any octets
after it, which are kept (a text ends with the datagram). -/
theorem C65_motorola_text (b : Bytes) (x : TextMessageProtocol) :
    Gives "Motorola.TextMessageProtocol" b x.toPy ↔
      ∃ (size : BitVec 16) (address : Short) (msg : Tms) (rest : Bytes), (msg.closed = true → rest = []) ∧
        b = msg.bytes size address ++ rest ∧ x = msg.obj size address rest :=
  (C64_gives "Motorola.TextMessageProtocol" ⟨_, TextMessageProtocol.read, TextMessageProtocol.toPy⟩ (List.mem_of_getElem? (i := 166) rfl) b x).trans (C57_motorola_text b x)

/-- C65. `MotorolaBinaryXml.from_bytes(b)` returns `x` exactly if `b` is a document and at least one octet, and `x` holds just this
document: whatever follows it is ignored. -/
theorem C65_binary_xml (b : Bytes) (x : MotorolaBinaryXml) :
    Gives "Motorola.MotorolaBinaryXml" b x.toPy ↔
      ∃ (doc : Document) (rest : Bytes), rest ≠ [] ∧ b = doc.bytes ++ rest ∧ x = ⟨[doc.obj]⟩ :=
  (C64_gives "Motorola.MotorolaBinaryXml" ⟨_, MotorolaBinaryXml.read, MotorolaBinaryXml.toPy⟩ (List.mem_of_getElem? (i := 157) rfl) b x).trans (C57_binary_xml b x)

end

/-- A radio signs off. -/
example : Gives "Hytera.RadioRegistrationService" [0, 1, 0, 4, 10, 0, 0, 80, 7]
    { opcode := [0], rrs_type := .known .de_registration, message_length := 4, radio_ip := ⟨10, 0, 0, 80⟩, result := none, valid_time := none : Hytera.RadioRegistrationService }.toPy :=
  (C65_registration _ _).2 ⟨.other 1#8 4#16 ⟨10#8, 0#8, 0#8, 80#8⟩ (by decide) (by decide), [7], by decide +kernel, by decide +kernel⟩

end Dmr.Wire
