import Verif.Spec.Pack
import Verif.Model.Hytera.IpSiteConnectProtocol
import Verif.Model.Hytera.IpSiteConnectHeartbeat
import Verif.Model.Hytera.RealTimeTransportProtocol
/-
Specification of a Hytera repeater: the packets that it sends to its peers (`bytes`) and the objects that they should get (`obj`).
Nothing here mentions readers or offsets.
-/

set_option autoImplicit false

namespace Dmr.Wire

open Spec Hytera

/-! ### IP site connect -/

/-- What an IP site connect packet says. -/
structure Ipsc where
  source_port : Octets 2
  sequence_number : BitVec 8
  reserved_3 : Octets 3
  packet_type : BitVec 8
  reserved_7a : Octets 7
  timeslot : BitVec 16
  slot_type : BitVec 16
  color_code : BitVec 16
  frame_type : BitVec 16
  reserved_2a : Octets 2
  payload : Octets 34
  reserved_2b : Octets 2
  call_type : BitVec 8
  destination : BitVec 32
  source : BitVec 32
  reserved_1b : BitVec 8

/-- The color code and the radio numbers have the lowest octet first. -/
def Ipsc.bytes (x : Ipsc) : Bytes :=
  pack [x.source_port, 0x5A5A#16, x.sequence_number, x.reserved_3, x.packet_type, x.reserved_7a, x.timeslot, x.slot_type,
    le16 x.color_code, x.frame_type, x.reserved_2a, x.payload, x.reserved_2b, x.call_type, le32 x.destination, le32 x.source,
    x.reserved_1b]

/-- Octets that follow the packet in the datagram are extra data. -/
def Ipsc.obj (x : Ipsc) (rest : Bytes) : IpSiteConnectProtocol where
  source_port := x.source_port.val
  fixed_header := [0x5A, 0x5A]
  sequence_number := x.sequence_number.toNat
  reserved_3 := x.reserved_3.val
  packet_type := resolveEnum _ x.packet_type.toNat
  reserved_7a := x.reserved_7a.val
  timeslot_raw := resolveEnum _ x.timeslot.toNat
  slot_type := resolveEnum _ x.slot_type.toNat
  color_code_raw := x.color_code.toNat
  frame_type := resolveEnum _ x.frame_type.toNat
  reserved_2a := x.reserved_2a.val
  ipsc_payload := x.payload.val
  reserved_2b := x.reserved_2b.val
  call_type := resolveEnum _ x.call_type.toNat
  destination_radio_id_raw := x.destination.toNat
  source_radio_id_raw := x.source.toNat
  reserved_1b := x.reserved_1b.toNat
  extra_data := if rest = [] then none else some rest

/-! ### Heartbeats -/

/-- What a heartbeat says: that the sender is alive, a ping or pong with a number, or anything else that has neither length. -/
inductive Heartbeat
  | keepalive
  | pingPong (sequence_number : BitVec 8)
  | unknown (data : Bytes) (h : data.length ≠ 1 ∧ data.length ≠ 20)

def Heartbeat.bytes : Heartbeat → Bytes
  | keepalive => [0]
  | pingPong n => [0x5A, 0x5A, 0x5A, 0x5A, 0x0A, 0, 0, 0, 0x14, 0, 0, 0] ++ (pack f[n] ++ [0x5A, 0x59, 0x5A, 0, 0, 0, 0])
  | unknown data _ => data

def Heartbeat.obj : Heartbeat → IpSiteConnectHeartbeat
  | keepalive => ⟨.keepalive ⟨[0]⟩⟩
  | pingPong n => ⟨.pingPong { header := [0x5A, 0x5A, 0x5A, 0x5A], heartbeat_identitier := [0x0A, 0, 0, 0, 0x14]
                               nullbytes := [0, 0, 0], heartbeat_seq := n.toNat, tail := [0x5A, 0x59, 0x5A, 0, 0, 0, 0] }⟩
  | unknown data _ => ⟨.unknown ⟨data⟩⟩

/-! ### RTP -/

/-- The fields of the RTP header extension. -/
structure RtpExtension where
  identifier : BitVec 16
  length : BitVec 16
  slot : BitVec 7
  last : Bool
  source : BitVec 32
  destination : BitVec 32
  call_type : BitVec 8
  reserved : BitVec 32

/-- The extension as it is written: radio numbers have the lowest octet first. -/
def RtpExtension.bytes (x : RtpExtension) : Bytes :=
  pack [x.identifier, x.length, x.slot, x.last, le32 x.source, le32 x.destination, x.call_type, x.reserved]

/-- The extension as it is to be decoded. -/
def RtpExtension.object (x : RtpExtension) : RealTimeTransportProtocol.HeaderExtension :=
  { header_identifier := x.identifier.toNat, length := x.length.toNat, slot := x.slot.toNat, last_flag := x.last
    source_id := ⟨x.source.toNat⟩, destination_id := ⟨x.destination.toNat⟩, call_type := resolveEnum _ x.call_type.toNat
    reserved := octets 4 x.reserved.toNat }

/-- The end of an RTP packet: no padding, padding octets followed by their number (which counts itself), or a padding flag with a
number of zero, which is the last octet of what precedes. -/
inductive Padding
  | none
  | some (octets : Bytes) (h : octets.length < 255)
  | zero

def Padding.flag : Padding → Bool
  | none => false
  | _ => true

def Padding.bytes : Padding → Bytes
  | some p _ => p ++ [UInt8.ofNat (p.length + 1)]
  | _ => []

/-- What an RTP packet says. -/
structure Rtp where
  csrc : List (BitVec 32)
  few : csrc.length < 16
  extension : Option RtpExtension
  marker : Bool
  payload_type : BitVec 7
  sequence_number : BitVec 16
  timestamp : BitVec 32
  ssrc : BitVec 32
  audio : Bytes
  padding : Padding

def Rtp.bytes (x : Rtp) : Bytes :=
  pack [2#2, x.padding.flag, x.extension.isSome, BitVec.ofNat 4 x.csrc.length, x.marker, x.payload_type, x.sequence_number, x.timestamp,
      x.ssrc] ++
    (x.csrc.flatMap (fun c => octets 4 c.toNat) ++ (x.extension.elim [] RtpExtension.bytes ++ (x.audio ++ x.padding.bytes)))

/-- A number of padding octets that is zero is there. -/
def Rtp.ok (x : Rtp) : Prop := x.padding = .zero → x.bytes.getLast? = some 0

def Rtp.obj (x : Rtp) : RealTimeTransportProtocol where
  fixed_header :=
    { version := 2, padding := x.padding.flag, extension := x.extension.isSome, num_csrc := x.csrc.length, marker := x.marker
      payload_type := x.payload_type.toNat, sequence_number := x.sequence_number.toNat, timestamp := x.timestamp.toNat
      ssrc := x.ssrc.toNat, csrc := x.csrc.map BitVec.toNat }
  header_extension := x.extension.map RtpExtension.object
  audio_data := x.audio
  m_len_padding := x.padding.bytes.length
  padding := if x.padding.flag then some x.padding.bytes else none

end Dmr.Wire
