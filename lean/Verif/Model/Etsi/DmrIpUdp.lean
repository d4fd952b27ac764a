import Verif.Runtime
/-
Model of okdmr/kaitai/etsi/dmr_ip_udp.py (generated by tools/py2lean.py from the Python AST;
definitions marked "hand-written" are not).
-/

namespace Dmr.Etsi

/-- okdmr/kaitai/etsi/dmr_ip_udp.py:18-20 `class SourceIpAddressIds(Enum)`. -/
inductive DmrIpUdp.SourceIpAddressIds where
  | radio_network
  | usb_ethernet_interface_network
  deriving DecidableEq

/-- okdmr/kaitai/etsi/dmr_ip_udp.py:18-20 values of `SourceIpAddressIds`. -/
def DmrIpUdp.SourceIpAddressIds.toNat : DmrIpUdp.SourceIpAddressIds → Nat
  | .radio_network => 0
  | .usb_ethernet_interface_network => 1

/-- okdmr/kaitai/etsi/dmr_ip_udp.py:18-20 `SourceIpAddressIds` as a Python enumeration. -/
instance DmrIpUdp.SourceIpAddressIds.instPyEnum : PyEnum DmrIpUdp.SourceIpAddressIds where
  all := [.radio_network, .usb_ethernet_interface_network]
  value := DmrIpUdp.SourceIpAddressIds.toNat

/-- okdmr/kaitai/etsi/dmr_ip_udp.py:22-25 `class DestinationIpAddressIds(Enum)`. -/
inductive DmrIpUdp.DestinationIpAddressIds where
  | radio_network
  | usb_ethernet_interface_network
  | group_network
  deriving DecidableEq

/-- okdmr/kaitai/etsi/dmr_ip_udp.py:22-25 values of `DestinationIpAddressIds`. -/
def DmrIpUdp.DestinationIpAddressIds.toNat : DmrIpUdp.DestinationIpAddressIds → Nat
  | .radio_network => 0
  | .usb_ethernet_interface_network => 1
  | .group_network => 2

/-- okdmr/kaitai/etsi/dmr_ip_udp.py:22-25 `DestinationIpAddressIds` as a Python enumeration. -/
instance DmrIpUdp.DestinationIpAddressIds.instPyEnum : PyEnum DmrIpUdp.DestinationIpAddressIds where
  all := [.radio_network, .usb_ethernet_interface_network, .group_network]
  value := DmrIpUdp.DestinationIpAddressIds.toNat

/-- okdmr/kaitai/etsi/dmr_ip_udp.py:27-30 `class UdpPortIds(Enum)`. -/
inductive DmrIpUdp.UdpPortIds where
  | present_in_extended_header
  | utf16be_text_message_port_5016
  | location_interface_protocol
  deriving DecidableEq

/-- okdmr/kaitai/etsi/dmr_ip_udp.py:27-30 values of `UdpPortIds`. -/
def DmrIpUdp.UdpPortIds.toNat : DmrIpUdp.UdpPortIds → Nat
  | .present_in_extended_header => 0
  | .utf16be_text_message_port_5016 => 1
  | .location_interface_protocol => 2

/-- okdmr/kaitai/etsi/dmr_ip_udp.py:27-30 `UdpPortIds` as a Python enumeration. -/
instance DmrIpUdp.UdpPortIds.instPyEnum : PyEnum DmrIpUdp.UdpPortIds where
  all := [.present_in_extended_header, .utf16be_text_message_port_5016, .location_interface_protocol]
  value := DmrIpUdp.UdpPortIds.toNat

/-- okdmr/kaitai/etsi/dmr_ip_udp.py:50-79 attributes of `DmrIpUdp.UdpIpv4CompressedHeader`. -/
structure DmrIpUdp.UdpIpv4CompressedHeader where
  ipv4_identification : Bytes
  source_ip_address_id : EnumVal DmrIpUdp.SourceIpAddressIds
  destination_ip_address_id : EnumVal DmrIpUdp.DestinationIpAddressIds
  header_compression_opcode_msb : Bool
  udp_source_port_id : EnumVal DmrIpUdp.UdpPortIds
  header_compression_opcode_lsb : Bool
  udp_destination_port_id : EnumVal DmrIpUdp.UdpPortIds
  udp_source_port : Option (Bytes)
  udp_destination_port : Option (Bytes)
  user_data : Bytes
  deriving DecidableEq

/-- okdmr/kaitai/etsi/dmr_ip_udp.py:50-79 `DmrIpUdp.UdpIpv4CompressedHeader._read`. -/
def DmrIpUdp.UdpIpv4CompressedHeader.read : Rd DmrIpUdp.UdpIpv4CompressedHeader := do
  let ipv4_identification ← readBytes 2
  let source_ip_address_id ← asEnum DmrIpUdp.SourceIpAddressIds (readBitsIntBe 4)
  let destination_ip_address_id ← asEnum DmrIpUdp.DestinationIpAddressIds (readBitsIntBe 4)
  let header_compression_opcode_msb ← readFlag
  let udp_source_port_id ← asEnum DmrIpUdp.UdpPortIds (readBitsIntBe 7)
  let header_compression_opcode_lsb ← readFlag
  let udp_destination_port_id ← asEnum DmrIpUdp.UdpPortIds (readBitsIntBe 7)
  alignToByte
  let udp_source_port ← optionally (decide (udp_source_port_id = .known .present_in_extended_header)) (readBytes 2)
  let udp_destination_port ← optionally (decide (udp_destination_port_id = .known .present_in_extended_header)) (readBytes 2)
  let user_data ← readBytesFull
  return { ipv4_identification, source_ip_address_id, destination_ip_address_id, header_compression_opcode_msb, udp_source_port_id, header_compression_opcode_lsb, udp_destination_port_id, udp_source_port, udp_destination_port, user_data }

/-- okdmr/kaitai/etsi/dmr_ip_udp.py:38-39 attributes of `DmrIpUdp`. -/
structure DmrIpUdp where
  deriving DecidableEq

/-- okdmr/kaitai/etsi/dmr_ip_udp.py:38-39 `DmrIpUdp._read`. -/
def DmrIpUdp.read : Rd DmrIpUdp := return {}

end Dmr.Etsi
