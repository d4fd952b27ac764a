import Verif.Spec.Pack
import Verif.Model.Hytera.LocationProtocol
import Verif.Model.Hytera.TelemetryProtocol
import Verif.Model.Hytera.DataTransmitProtocol
import Verif.Model.Hytera.RadioControlProtocol
import Verif.Model.Hytera.RadioRegistrationService
import Verif.Model.Hytera.TextMessageProtocol
import Verif.Model.Hytera.DataDeliveryStates
import Verif.Model.Hytera.HyteraDmrApplicationProtocol
/-
Specification of a Hytera transmitter: what it wants to say (the constructors below), what it writes (`flds`, in the
order of the protocol documents), and the object that a receiver should get (`obj`). Nothing here mentions readers or
offsets.
-/

set_option autoImplicit false

namespace Dmr.Wire

open Spec Hytera

/-- Address of a radio. -/
structure Ip where
  subnet : BitVec 8
  id1 : BitVec 8
  id2 : BitVec 8
  id3 : BitVec 8

def Ip.flds (x : Ip) : List Fld := [x.subnet, x.id1, x.id2, x.id3]

def Ip.obj (x : Ip) : RadioIp where
  subnet := x.subnet.toNat
  radio_id_1 := x.id1.toNat
  radio_id_2 := x.id2.toNat
  radio_id_3 := x.id3.toNat

/-- A position, 40 octets. -/
structure Gps where
  status : Octets 1
  time : Octets 6
  date : Octets 6
  north_south : Octets 1
  latitude : Octets 9
  east_west : Octets 1
  longitude : Octets 10
  speed : Octets 3
  direction : Octets 3

def Gps.flds (x : Gps) : List Fld :=
  [x.status, x.time, x.date, x.north_south, x.latitude, x.east_west, x.longitude, x.speed, x.direction]

def Gps.obj (x : Gps) : Gpsdata where
  gps_status := x.status.val
  gps_time := x.time.val
  gps_date := x.date.val
  north_south := x.north_south.val
  latitude := x.latitude.val
  east_west := x.east_west.val
  longitude := x.longitude.val
  speed := x.speed.val
  direction := x.direction.val

/-! ### Location Protocol -/

/-- What a location message can say. -/
inductive Lp
  | standardRequest (request : BitVec 32) (ip : Ip)
  | standardAnswer (request : BitVec 32) (ip : Ip) (result : BitVec 16) (gps : Gps)
  | standardAnswerWithRssi (request : BitVec 32) (ip : Ip) (result : BitVec 16) (gps : Gps) (rssi : BitVec 16)
  | emergencyReportStopRequest (request : BitVec 32) (ip : Ip)
  | emergencyReportStopAnswer (request : BitVec 32) (ip : Ip) (result : BitVec 16)
  | emergencyReport (ip : Ip) (kind : BitVec 8) (gps : Gps)
  | triggeredReportRequest (request : BitVec 32) (ip : Ip) (start stop : Utf8 14) (interval : Utf8 8)
  | triggeredReportAnswer (request : BitVec 32) (ip : Ip) (result : BitVec 16)
  | triggeredReport (request : BitVec 32) (ip : Ip) (remaining : Utf8 8) (gps : Gps)
  | triggeredReportStopRequest (request : BitVec 32) (ip : Ip)
  | triggeredReportStopAnswer (request : BitVec 32) (ip : Ip) (result : BitVec 16)
  | conditionReportRequest (request : BitVec 32) (ip : Ip) (trigger : BitVec 8) (distance : BitVec 32)
      (start stop : Utf8 14) (interval max_interval : Utf8 8)
  | conditionReportAnswer (request : BitVec 32) (ip : Ip) (trigger : BitVec 8) (result : BitVec 16)
  | conditionReport (request : BitVec 32) (ip : Ip) (gps : Gps)
  | conditionReportWithRssi (request : BitVec 32) (ip : Ip) (result : BitVec 16) (gps : Gps) (rssi : BitVec 16)
  | quickGpsStart (request : BitVec 32) (ip : Ip) (start stop : Utf8 14) (interval : Utf8 8) (step : BitVec 16)
      (percentage : BitVec 8) (order : BitVec 16)
  | quickGpsOther (request : BitVec 32) (ip : Ip) (command : BitVec 8) (h : command ≠ 1)
  | quickGpsAnswer (request : BitVec 32) (ip : Ip) (command : BitVec 8) (result : BitVec 16)

/-- Opcodes: A standard, B emergency, C triggered, D condition. -/
def Lp.opcode : Lp → BitVec 16
  | standardRequest .. => 0xA001#16
  | standardAnswer .. => 0xA002#16
  | standardAnswerWithRssi .. => 0xA003#16
  | emergencyReportStopRequest .. => 0xB001#16
  | emergencyReportStopAnswer .. => 0xB002#16
  | emergencyReport .. => 0xB003#16
  | triggeredReportRequest .. => 0xC001#16
  | triggeredReportAnswer .. => 0xC002#16
  | triggeredReport .. => 0xC003#16
  | triggeredReportStopRequest .. => 0xC004#16
  | triggeredReportStopAnswer .. => 0xC005#16
  | conditionReportRequest .. => 0xD001#16
  | conditionReportAnswer .. => 0xD002#16
  | conditionReport .. => 0xD003#16
  | conditionReportWithRssi .. => 0xD004#16
  | quickGpsStart .. | quickGpsOther .. => 0xD011#16
  | quickGpsAnswer .. => 0xD012#16

/-- What is written after the header. -/
def Lp.flds : Lp → List Fld
  | standardRequest request ip => f[request] ++ ip.flds
  | standardAnswer request ip result gps => f[request] ++ ip.flds ++ f[result] ++ gps.flds
  | standardAnswerWithRssi request ip result gps rssi => f[request] ++ ip.flds ++ f[result] ++ gps.flds ++ f[rssi]
  | emergencyReportStopRequest request ip => f[request] ++ ip.flds
  | emergencyReportStopAnswer request ip result => f[request] ++ ip.flds ++ f[result]
  | emergencyReport ip kind gps => ip.flds ++ f[kind] ++ gps.flds
  | triggeredReportRequest request ip start stop interval => f[request] ++ ip.flds ++ f[start, stop, interval]
  | triggeredReportAnswer request ip result => f[request] ++ ip.flds ++ f[result]
  | triggeredReport request ip remaining gps => f[request] ++ ip.flds ++ f[remaining] ++ gps.flds
  | triggeredReportStopRequest request ip => f[request] ++ ip.flds
  | triggeredReportStopAnswer request ip result => f[request] ++ ip.flds ++ f[result]
  | conditionReportRequest request ip trigger distance start stop interval max_interval =>
    f[request] ++ ip.flds ++ f[trigger, distance, start, stop, interval, max_interval]
  | conditionReportAnswer request ip trigger result => f[request] ++ ip.flds ++ f[trigger, result]
  | conditionReport request ip gps => f[request] ++ ip.flds ++ gps.flds
  | conditionReportWithRssi request ip result gps rssi => f[request] ++ ip.flds ++ f[result] ++ gps.flds ++ f[rssi]
  | quickGpsStart request ip start stop interval step percentage order =>
    f[request] ++ ip.flds ++ f[1#8, start, stop, interval, step, percentage, order]
  | quickGpsOther request ip command _ => f[request] ++ ip.flds ++ f[command]
  | quickGpsAnswer request ip command result => f[request] ++ ip.flds ++ f[command, result]

open LocationProtocol in
/-- What should be received. -/
def Lp.obj : Lp → LocationProtocol.DataUnion
  | standardRequest request ip => .standardRequest { request_id := request.toNat, radio_ip := ip.obj }
  | standardAnswer request ip result gps =>
    .standardAnswer { request_id := request.toNat, radio_ip := ip.obj, result := resolveEnum _ result.toNat, gpsdata := gps.obj }
  | standardAnswerWithRssi request ip result gps rssi =>
    .standardAnswerWithRssi
      { request_id := request.toNat, radio_ip := ip.obj, result := resolveEnum _ result.toNat, gpsdata := gps.obj,
        rssi_value := rssi.toInt }
  | emergencyReportStopRequest request ip => .emergencyReportStopRequest { request_id := request.toNat, radio_ip := ip.obj }
  | emergencyReportStopAnswer request ip result =>
    .emergencyReportStopAnswer { request_id := request.toNat, radio_ip := ip.obj, result := resolveEnum _ result.toNat }
  | emergencyReport ip kind gps => .emergencyReport { radio_ip := ip.obj, emergency_type := kind.toNat, gpsdata := gps.obj }
  | triggeredReportRequest request ip start stop interval =>
    .triggeredReportRequest
      { request_id := request.toNat, radio_ip := ip.obj, start_time := ⟨start.val⟩, stop_time := ⟨stop.val⟩, interval := ⟨interval.val⟩ }
  | triggeredReportAnswer request ip result =>
    .triggeredReportAnswer { request_id := request.toNat, radio_ip := ip.obj, result := resolveEnum _ result.toNat }
  | triggeredReport request ip remaining gps =>
    .triggeredReport
      { request_id := request.toNat, radio_ip := ip.obj, time_remaining := ⟨remaining.val⟩, gpsdata := gps.obj }
  | triggeredReportStopRequest request ip => .triggeredReportStopRequest { request_id := request.toNat, radio_ip := ip.obj }
  | triggeredReportStopAnswer request ip result =>
    .triggeredReportStopAnswer { request_id := request.toNat, radio_ip := ip.obj, result := resolveEnum _ result.toNat }
  | conditionReportRequest request ip trigger distance start stop interval max_interval =>
    .conditionReportRequest
      { request_id := request.toNat, radio_ip := ip.obj, trigger_type := trigger.toNat, distance := distance.toNat,
        start_time := ⟨start.val⟩, stop_time := ⟨stop.val⟩, interval := ⟨interval.val⟩, max_interval := ⟨max_interval.val⟩ }
  | conditionReportAnswer request ip trigger result =>
    .conditionReportAnswer
      { request_id := request.toNat, radio_ip := ip.obj, trigger_type := resolveEnum _ trigger.toNat,
        result := resolveEnum _ result.toNat }
  | conditionReport request ip gps =>
    .conditionReport { request_id := request.toNat, radio_ip := ip.obj, gpsdata := gps.obj }
  | conditionReportWithRssi request ip result gps rssi =>
    .conditionReportWithRssi
      { request_id := request.toNat, radio_ip := ip.obj, result := resolveEnum _ result.toNat, gpsdata := gps.obj,
        rssi_value := rssi.toInt }
  | quickGpsStart request ip start stop interval step percentage order =>
    .conditionQuickGpsRequest
      { request_id := request.toNat, radio_ip := ip.obj, cmd_type := resolveEnum _ 1
        quick_gps_payload := some
          { start_time := ⟨start.val⟩, stop_time := ⟨stop.val⟩, interval := ⟨interval.val⟩, send_step := step.toNat
            channel_use_percentage := percentage.toNat, send_order := order.toNat } }
  | quickGpsOther request ip command _ =>
    .conditionQuickGpsRequest
      { request_id := request.toNat, radio_ip := ip.obj, cmd_type := resolveEnum _ command.toNat, quick_gps_payload := none }
  | quickGpsAnswer request ip command result =>
    .conditionQuickGpsAnswer
      { request_id := request.toNat, radio_ip := ip.obj, cmd_type := resolveEnum _ command.toNat,
        result := resolveEnum _ result.toNat }

/-- A whole location message; the length is not looked at. -/
def Lp.bytes (msg : Lp) (message_length : BitVec 16) : Bytes := pack (f[msg.opcode, message_length] ++ msg.flds)

def Lp.message (msg : Lp) (message_length : BitVec 16) : LocationProtocol where
  opcode_header := resolveEnum _ msg.opcode.toNat
  message_length := message_length.toNat
  data := some msg.obj

/-! ### Telemetry Protocol -/

/-- What the five telemetry messages have in common: addresses, flag, call type, selected lines. -/
structure TpHead where
  source : Ip
  target : Ip
  pc_flag : BitVec 8
  call_type : BitVec 8
  vio_select : Octets 1

def TpHead.flds (x : TpHead) : List Fld := x.source.flds ++ x.target.flds ++ f[x.pc_flag, x.call_type, x.vio_select]

/-- What a telemetry message can say. -/
inductive Tp
  | standardStatusRequest (head : TpHead)
  | standardStatusReport (head : TpHead) (result : BitVec 8)
  | extendedStatusReport (head : TpHead) (result : BitVec 8) (text_length : BitVec 16) (text : PyStr)
      (h : (encUtf16le text).length = text_length.toNat)
  | remoteControlRequest (head : TpHead) (operation : BitVec 8)
  | remoteControlAnswer (head : TpHead) (result : BitVec 8)

/-- A0 status, B0 control; requests are odd, answers have 80 added. -/
def Tp.opcode : Tp → BitVec 8 × BitVec 8
  | standardStatusRequest .. => (0xA0#8, 0x01#8)
  | standardStatusReport .. => (0xA0#8, 0x81#8)
  | extendedStatusReport .. => (0xA0#8, 0x82#8)
  | remoteControlRequest .. => (0xB0#8, 0x01#8)
  | remoteControlAnswer .. => (0xB0#8, 0x81#8)

def Tp.bytes (msg : Tp) (message_length : BitVec 16) : Bytes :=
  match msg with
  | standardStatusRequest head => pack (f[msg.opcode.1, msg.opcode.2, message_length] ++ head.flds)
  | standardStatusReport head result => pack (f[msg.opcode.1, msg.opcode.2, message_length] ++ head.flds ++ f[result])
  | extendedStatusReport head result text_length text _ =>
    pack (f[msg.opcode.1, msg.opcode.2, message_length] ++ head.flds ++ f[result, text_length]) ++ encUtf16le text
  | remoteControlRequest head operation => pack (f[msg.opcode.1, msg.opcode.2, message_length] ++ head.flds ++ f[operation])
  | remoteControlAnswer head result => pack (f[msg.opcode.1, msg.opcode.2, message_length] ++ head.flds ++ f[result])

def Tp.obj : Tp → TelemetryProtocol.DataUnion
  | standardStatusRequest x =>
    .standardStatusRequest
      { source_ip := x.source.obj, target_ip := x.target.obj, pc_flag := resolveEnum _ x.pc_flag.toNat,
        call_type := resolveEnum _ x.call_type.toNat, vio_select := x.vio_select.val }
  | standardStatusReport x result =>
    .standardStatusReport
      { source_ip := x.source.obj, target_ip := x.target.obj, pc_flag := resolveEnum _ x.pc_flag.toNat,
        call_type := resolveEnum _ x.call_type.toNat, vio_select := x.vio_select.val, result := resolveEnum _ result.toNat }
  | extendedStatusReport x result text_length text _ =>
    .extendedStatusReport
      { source_ip := x.source.obj, target_ip := x.target.obj, pc_flag := resolveEnum _ x.pc_flag.toNat,
        call_type := resolveEnum _ x.call_type.toNat, vio_select := x.vio_select.val,
        result_messages := { result := resolveEnum _ result.toNat, message_length := text_length.toNat, message := text } }
  | remoteControlRequest x operation =>
    .remoteControlRequest
      { source_ip := x.source.obj, target_ip := x.target.obj, pc_flag := resolveEnum _ x.pc_flag.toNat,
        call_type := resolveEnum _ x.call_type.toNat, vio_select := x.vio_select.val,
        operation := resolveEnum _ operation.toNat }
  | remoteControlAnswer x result =>
    .remoteControlAnswer
      { source_ip := x.source.obj, target_ip := x.target.obj, pc_flag := resolveEnum _ x.pc_flag.toNat,
        call_type := resolveEnum _ x.call_type.toNat, vio_select := x.vio_select.val, result := resolveEnum _ result.toNat }

def Tp.message (msg : Tp) (message_length : BitVec 16) : TelemetryProtocol where
  service_type_opcode := resolveEnum _ msg.opcode.1.toNat
  specific_service_opcode := msg.opcode.2.toNat
  message_length := message_length.toNat
  m_specific_service := resolveEnum _ (256 * msg.opcode.1.toNat + msg.opcode.2.toNat)
  data := some msg.obj

/-! ### Data Transmit Protocol -/

/-- What a file transfer message can say. The first two are as long as the length in their header says. -/
inductive Dtp
  | request (message_length : BitVec 16) (destination source : Ip) (file_size : BitVec 16) (file_name : PyStr)
      (h : message_length.toNat = 10 + (encUtf16le file_name).length)
  | slice (message_length : BitVec 16) (destination source : Ip) (block : BitVec 16) (file_data : Bytes)
      (h : message_length.toNat = 10 + file_data.length)
  | lastSlice (message_length : BitVec 16) (destination source : Ip)
  | requestAnswer (message_length : BitVec 16) (destination source : Ip) (result : BitVec 8)
  | sliceAnswer (message_length : BitVec 16) (destination source : Ip) (block : BitVec 16) (result : BitVec 8)
  | lastSliceAnswer (message_length : BitVec 16) (destination source : Ip) (result : BitVec 8)

def Dtp.bytes (service_type : BitVec 8) : Dtp → Bytes
  | request n destination source file_size file_name _ =>
    pack (f[service_type, 0x01#8, n] ++ destination.flds ++ source.flds ++ f[file_size]) ++ encUtf16le file_name
  | slice n destination source block file_data _ =>
    pack (f[service_type, 0x02#8, n] ++ destination.flds ++ source.flds ++ f[block]) ++ file_data
  | lastSlice n destination source => pack (f[service_type, 0x03#8, n] ++ destination.flds ++ source.flds)
  | requestAnswer n destination source result =>
    pack (f[service_type, 0x11#8, n] ++ destination.flds ++ source.flds ++ f[result])
  | sliceAnswer n destination source block result =>
    pack (f[service_type, 0x12#8, n] ++ destination.flds ++ source.flds ++ f[block, result])
  | lastSliceAnswer n destination source result =>
    pack (f[service_type, 0x13#8, n] ++ destination.flds ++ source.flds ++ f[result])

def Dtp.message (service_type : BitVec 8) : Dtp → DataTransmitProtocol
  | request n destination source file_size file_name _ =>
    { service_type := resolveEnum _ service_type.toNat, service_specific_type := resolveEnum _ 0x01, message_length := n.toNat
      data := some (.dtpRequest
        { destination_ip := destination.obj, source_ip := source.obj, file_size := file_size.toNat, file_name }) }
  | slice n destination source block file_data _ =>
    { service_type := resolveEnum _ service_type.toNat, service_specific_type := resolveEnum _ 0x02, message_length := n.toNat
      data := some (.dataSliceTransmit
        { destination_ip := destination.obj, source_ip := source.obj, block_number := block.toNat, file_data }) }
  | lastSlice n destination source =>
    { service_type := resolveEnum _ service_type.toNat, service_specific_type := resolveEnum _ 0x03, message_length := n.toNat
      data := some (.lastDataSlice { destination_ip := destination.obj, source_ip := source.obj }) }
  | requestAnswer n destination source result =>
    { service_type := resolveEnum _ service_type.toNat, service_specific_type := resolveEnum _ 0x11, message_length := n.toNat
      data := some (.dtpAnswer
        { destination_ip := destination.obj, source_ip := source.obj, result := resolveEnum _ result.toNat }) }
  | sliceAnswer n destination source block result =>
    { service_type := resolveEnum _ service_type.toNat, service_specific_type := resolveEnum _ 0x12, message_length := n.toNat
      data := some (.dataSliceAnswer
        { destination_ip := destination.obj, source_ip := source.obj, block_number := block.toNat,
          result := resolveEnum _ result.toNat }) }
  | lastSliceAnswer n destination source result =>
    { service_type := resolveEnum _ service_type.toNat, service_specific_type := resolveEnum _ 0x13, message_length := n.toNat
      data := some (.lastDataSliceAnswer
        { destination_ip := destination.obj, source_ip := source.obj, result := resolveEnum _ result.toNat }) }

/-! ### Radio Registration Service -/

/-- What a registration message can say. -/
inductive Rrs
  | registrationAck (message_length : BitVec 16) (ip : Ip) (result : BitVec 8) (valid_time : BitVec 32)
  | onlineCheckAck (message_length : BitVec 16) (ip : Ip) (result : BitVec 8)
  | other (kind : BitVec 8) (message_length : BitVec 16) (ip : Ip) (h1 : kind ≠ 0x80#8) (h2 : kind ≠ 0x82#8)

def Rrs.bytes : Rrs → Bytes
  | registrationAck n ip result valid_time => pack (f[0#8, 0x80#8, n] ++ ip.flds ++ f[result, valid_time])
  | onlineCheckAck n ip result => pack (f[0#8, 0x82#8, n] ++ ip.flds ++ f[result])
  | other kind n ip _ _ => pack (f[0#8, kind, n] ++ ip.flds)

def Rrs.message : Rrs → RadioRegistrationService
  | registrationAck n ip result valid_time =>
    { opcode := [0], rrs_type := resolveEnum _ 0x80, message_length := n.toNat, radio_ip := ip.obj,
      result := some result.toNat, valid_time := some valid_time.toNat }
  | onlineCheckAck n ip result =>
    { opcode := [0], rrs_type := resolveEnum _ 0x82, message_length := n.toNat, radio_ip := ip.obj,
      result := some result.toNat, valid_time := none }
  | other kind n ip _ _ =>
    { opcode := [0], rrs_type := resolveEnum _ kind.toNat, message_length := n.toNat, radio_ip := ip.obj,
      result := none, valid_time := none }

/-! ### Data Delivery States -/

structure Dds where
  reserved : Octets 1
  kind : BitVec 8
  message_length : BitVec 16
  ip : Ip
  protocol_opcode : BitVec 16
  result : BitVec 8

def Dds.bytes (x : Dds) : Bytes :=
  pack (f[x.reserved, x.kind, x.message_length] ++ x.ip.flds ++ f[x.protocol_opcode, x.result])

def Dds.message (x : Dds) : DataDeliveryStates where
  reserved := x.reserved.val
  state_type := resolveEnum _ x.kind.toNat
  message_length := x.message_length.toNat
  radio_ip := x.ip.obj
  protocol_opcode := x.protocol_opcode.toNat
  result := resolveEnum _ x.result.toNat

/-! ### Radio Control Protocol -/

/-- What a radio control message can say. Numbers are written with the lowest octet first. The answer to an
identification request is as long as its header says (or, beyond 206 octets, its first 206 octets). -/
inductive Rcp
  | callRequest (message_length : BitVec 16) (call_type : BitVec 8) (target : BitVec 32)
  | callReply (message_length : BitVec 16) (result : BitVec 8)
  | removeRadioRequest (message_length : BitVec 16)
  | removeRadioReply (message_length : BitVec 16) (result : BitVec 8)
  | broadcastRequest (message_length : BitVec 16) (settings : List (BitVec 8 × BitVec 8)) (h : settings.length < 256)
  | broadcastReply (message_length : BitVec 16) (result : BitVec 8)
  | identificationEmpty (message_length : BitVec 16) (h : message_length.toNat < 6)
  | identificationHeader (message_length : BitVec 16) (header : Octets 6) (h1 : 6 ≤ message_length.toNat)
      (h2 : message_length.toNat < 198)
  | identificationText (message_length : BitVec 16) (header : Octets 6) (text : PyStr) (h : (encUtf16be text).length = 192)
      (h1 : 198 ≤ message_length.toNat) (h2 : message_length.toNat < 206)
  | identification (message_length : BitVec 16) (header : Octets 6) (text : PyStr) (h : (encUtf16be text).length = 192)
      (footer : Octets 8) (h1 : 206 ≤ message_length.toNat)
  | other (service_type message_length : BitVec 16) (data : Bytes) (h : data.length = message_length.toNat)
      (hs : service_type.toNat ∉ [0x0841, 0x8841, 0x0842, 0x8842, 0x10C9, 0x80C9, 0x82D4])

def Rcp.bytes : Rcp → Bytes
  | callRequest n call_type target => pack f[le16 0x0841#16, le16 n, call_type, le32 target]
  | callReply n result => pack f[le16 0x8841#16, le16 n, result]
  | removeRadioRequest n => pack f[le16 0x0842#16, le16 n]
  | removeRadioReply n result => pack f[le16 0x8842#16, le16 n, result]
  | broadcastRequest n settings _ =>
    pack f[le16 0x10C9#16, le16 n, BitVec.ofNat 8 settings.length] ++ (settings.map fun s => pack f[s.1, s.2]).flatten
  | broadcastReply n result => pack f[le16 0x80C9#16, le16 n, result]
  | identificationEmpty n _ => pack f[le16 0x82D4#16, le16 n]
  | identificationHeader n header _ _ => pack f[le16 0x82D4#16, le16 n, header]
  | identificationText n header text _ _ _ => pack f[le16 0x82D4#16, le16 n, header] ++ encUtf16be text
  | identification n header text _ footer _ => pack f[le16 0x82D4#16, le16 n, header] ++ encUtf16be text ++ footer.val
  | other service_type n data _ _ => pack f[le16 service_type, le16 n] ++ data

def Rcp.message : Rcp → RadioControlProtocol
  | callRequest n call_type target =>
    { service_type := resolveEnum _ 0x0841, message_length := n.toNat
      data := .callRequest { call_type := resolveEnum _ call_type.toNat, target_id := target.toNat } }
  | callReply n result =>
    { service_type := resolveEnum _ 0x8841, message_length := n.toNat, data := .callReply { result := resolveEnum _ result.toNat } }
  | removeRadioRequest n =>
    { service_type := resolveEnum _ 0x0842, message_length := n.toNat, data := .removeRadioRequest {} }
  | removeRadioReply n result =>
    { service_type := resolveEnum _ 0x8842, message_length := n.toNat
      data := .removeRadioReply { result := resolveEnum _ result.toNat } }
  | broadcastRequest n settings _ =>
    { service_type := resolveEnum _ 0x10C9, message_length := n.toNat
      data := .broadcastStatusConfigurationRequest
        { num_broadcast_configuration := settings.length
          broadcast_configuration := settings.map fun s => { config_operation := s.1.toNat, config_target := s.2.toNat } } }
  | broadcastReply n result =>
    { service_type := resolveEnum _ 0x80C9, message_length := n.toNat
      data := .broadcastStatusConfigurationReply { result := resolveEnum _ result.toNat } }
  | identificationEmpty n _ =>
    { service_type := resolveEnum _ 0x82D4, message_length := n.toNat
      data := .radioIdentificationReply { header := none, text := none, footer := none } }
  | identificationHeader n header _ _ =>
    { service_type := resolveEnum _ 0x82D4, message_length := n.toNat
      data := .radioIdentificationReply { header := some header.val, text := none, footer := none } }
  | identificationText n header text _ _ _ =>
    { service_type := resolveEnum _ 0x82D4, message_length := n.toNat
      data := .radioIdentificationReply { header := some header.val, text := some text, footer := none } }
  | identification n header text _ footer _ =>
    { service_type := resolveEnum _ 0x82D4, message_length := n.toNat
      data := .radioIdentificationReply { header := some header.val, text := some text, footer := some footer.val } }
  | other service_type n data _ _ =>
    { service_type := resolveEnum _ service_type.toNat, message_length := n.toNat, data := .genericData { data } }

/-! ### Text Message Protocol -/

/-- The option of a text message: a text and its length in octets. -/
structure TmpOption where
  len : BitVec 16
  text : PyStr
  h : (encUtf16le text).length = len.toNat

/-- What the option adds to the length of the message. -/
def optionOctets : Option TmpOption → Nat
  | none => 0
  | some o => 2 + o.len.toNat

/-- What is said after the destination address. -/
inductive TmpBody
  | privateMessage (source : Ip) (text : PyStr)
  | groupMessage (source : Ip) (text : PyStr)
  | privateAck (source : Ip) (result : BitVec 8)
  | groupAck (result : BitVec 8)
  | other (service_type : BitVec 8) (source : Ip) (h : service_type.toNat ∉ [0xA1, 0xA2, 0xB1, 0xB2])

def TmpBody.service : TmpBody → BitVec 8
  | privateMessage .. => 0xA1#8
  | privateAck .. => 0xA2#8
  | groupMessage .. => 0xB1#8
  | groupAck .. => 0xB2#8
  | other service_type .. => service_type

def TmpBody.flds : TmpBody → List Fld
  | privateMessage source _ => source.flds
  | groupMessage source _ => source.flds
  | privateAck source result => source.flds ++ f[result]
  | groupAck result => f[result]
  | other _ source _ => source.flds

def TmpBody.text? : TmpBody → Option PyStr
  | privateMessage _ text => some text
  | groupMessage _ text => some text
  | _ => none

def TmpBody.source? : TmpBody → Option Ip
  | privateMessage source _ => some source
  | groupMessage source _ => some source
  | privateAck source _ => some source
  | groupAck _ => none
  | other _ source _ => some source

def TmpBody.result? : TmpBody → Option (BitVec 8)
  | privateAck _ result => some result
  | groupAck result => some result
  | _ => none

/-- A text message. -/
structure Tmp where
  ack_not_required : BitVec 1
  reserved : BitVec 6
  message_length : BitVec 16
  option : Option TmpOption
  request : BitVec 32
  destination : Ip
  body : TmpBody
  /-- The length in the header is that of everything after it, for messages with a text. -/
  h : ∀ t, body.text? = some t → message_length.toNat = 12 + (encUtf16le t).length + optionOctets option

def encText : Option PyStr → Bytes
  | none => []
  | some t => encUtf16le t

def Tmp.bytes (x : Tmp) : Bytes :=
  match x.option with
  | none =>
    pack (f[x.ack_not_required, 0#1, x.reserved, x.body.service, x.message_length, x.request] ++ x.destination.flds ++ x.body.flds) ++
      encText x.body.text?
  | some o =>
    pack (f[x.ack_not_required, 1#1, x.reserved, x.body.service, x.message_length, o.len, x.request] ++ x.destination.flds ++
      x.body.flds) ++ encText x.body.text? ++ encUtf16le o.text

def Tmp.message (x : Tmp) : TextMessageProtocol where
  ack_flag := resolveEnum _ x.ack_not_required.toNat
  option_flag := resolveEnum _ (if x.option.isSome then 1 else 0)
  reserved := x.reserved.toNat
  service_type := resolveEnum _ x.body.service.toNat
  message_length := x.message_length.toNat
  option_field_len := x.option.map fun o => o.len.toNat
  request_id := x.request.toNat
  destination_ip := x.destination.obj
  source_ip := x.body.source?.map Ip.obj
  result := x.body.result?.map fun r => resolveEnum _ r.toNat
  tmdata := x.body.text?
  option_field := x.option.map fun o => o.text

/-! ### Frames -/

/-- An application message (other than telemetry). -/
inductive Msg
  | control (x : Rcp)
  | location (x : Lp) (message_length : BitVec 16)
  | text (x : Tmp)
  | registration (x : Rrs)
  | transmit (service_type : BitVec 8) (x : Dtp)
  | delivery (x : Dds)

def Msg.protocol : Msg → BitVec 7
  | control _ => 0x02#7
  | location _ _ => 0x08#7
  | text _ => 0x09#7
  | registration _ => 0x11#7
  | transmit _ _ => 0x13#7
  | delivery _ => 0x14#7

def Msg.bytes : Msg → Bytes
  | control x => x.bytes
  | location x n => x.bytes n
  | text x => x.bytes
  | registration x => x.bytes
  | transmit s x => x.bytes s
  | delivery x => x.bytes

def Msg.obj : Msg → HyteraDmrApplicationProtocol.DataUnion
  | control x => .radioControlProtocol x.message
  | location x n => .locationProtocol (x.message n)
  | text x => .textMessageProtocol x.message
  | registration x => .radioRegistrationService x.message
  | transmit s x => .dataTransmitProtocol (x.message s)
  | delivery x => .dataDeliveryStates x.message

/-- A frame: reliability flag and protocol number, message, checksum, 03. -/
structure Frame where
  reliable : Bool
  msg : Msg
  checksum : BitVec 8

def Frame.bytes (x : Frame) : Bytes := pack f[x.reliable, x.msg.protocol] ++ x.msg.bytes ++ pack f[x.checksum, 0x03#8]

def Frame.obj (x : Frame) : HyteraDmrApplicationProtocol where
  is_reliable_message := x.reliable
  message_header := resolveEnum _ x.msg.protocol.toNat
  data := some x.msg.obj
  checksum := x.checksum.toNat
  message_footer := [0x03]

end Dmr.Wire
