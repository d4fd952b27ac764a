import Verif.Py.Syntax
/-
Generated by tools/mkpyast.py: okdmr/kaitai/etsi/dmr_ip_udp.py as data.
-/

set_option autoImplicit false

namespace Dmr.Py.Source.Etsi

/-- okdmr/kaitai/etsi/dmr_ip_udp.py:18-20 -/
def DmrIpUdp.SourceIpAddressIds : EnumDef where
  qualified := "Etsi.DmrIpUdp.SourceIpAddressIds"
  name := "SourceIpAddressIds"
  members := [("radio_network", 0), ("usb_ethernet_interface_network", 1)]

/-- okdmr/kaitai/etsi/dmr_ip_udp.py:22-25 -/
def DmrIpUdp.DestinationIpAddressIds : EnumDef where
  qualified := "Etsi.DmrIpUdp.DestinationIpAddressIds"
  name := "DestinationIpAddressIds"
  members := [("radio_network", 0), ("usb_ethernet_interface_network", 1), ("group_network", 2)]

/-- okdmr/kaitai/etsi/dmr_ip_udp.py:27-30 -/
def DmrIpUdp.UdpPortIds : EnumDef where
  qualified := "Etsi.DmrIpUdp.UdpPortIds"
  name := "UdpPortIds"
  members := [("present_in_extended_header", 0), ("utf16be_text_message_port_5016", 1), ("location_interface_protocol", 2)]

/-- okdmr/kaitai/etsi/dmr_ip_udp.py:41-79 -/
def DmrIpUdp.UdpIpv4CompressedHeader : ClassDef where
  name := "Etsi.DmrIpUdp.UdpIpv4CompressedHeader"
  methods := [("__init__", ⟨["self", "_io", "_parent", "_root"],
      [.setattr (.name "self") "_io" (.name "_io"),
       .setattr (.name "self") "_parent" (.name "_parent"),
       .setattr (.name "self") "_root" (.ifExp (.name "_root") (.name "_root") (.name "self")),
       .expr (.call (.attr (.name "self") "_read") [])]⟩),
    ("_read", ⟨["self"],
      [.setattr (.name "self") "ipv4_identification" (.call (.attr (.attr (.name "self") "_io") "read_bytes") [.int 2]),
       .setattr (.name "self") "source_ip_address_id" (.call (.attr (.global "KaitaiStream") "resolve_enum") [.enum "Etsi.DmrIpUdp.SourceIpAddressIds", .call (.attr (.attr (.name "self") "_io") "read_bits_int_be") [.int 4]]),
       .setattr (.name "self") "destination_ip_address_id" (.call (.attr (.global "KaitaiStream") "resolve_enum") [.enum "Etsi.DmrIpUdp.DestinationIpAddressIds", .call (.attr (.attr (.name "self") "_io") "read_bits_int_be") [.int 4]]),
       .setattr (.name "self") "header_compression_opcode_msb" (.cmp .ne (.call (.attr (.attr (.name "self") "_io") "read_bits_int_be") [.int 1]) (.int 0)),
       .setattr (.name "self") "udp_source_port_id" (.call (.attr (.global "KaitaiStream") "resolve_enum") [.enum "Etsi.DmrIpUdp.UdpPortIds", .call (.attr (.attr (.name "self") "_io") "read_bits_int_be") [.int 7]]),
       .setattr (.name "self") "header_compression_opcode_lsb" (.cmp .ne (.call (.attr (.attr (.name "self") "_io") "read_bits_int_be") [.int 1]) (.int 0)),
       .setattr (.name "self") "udp_destination_port_id" (.call (.attr (.global "KaitaiStream") "resolve_enum") [.enum "Etsi.DmrIpUdp.UdpPortIds", .call (.attr (.attr (.name "self") "_io") "read_bits_int_be") [.int 7]]),
       .expr (.call (.attr (.attr (.name "self") "_io") "align_to_byte") []),
       .if_ (.cmp .eq (.attr (.name "self") "udp_source_port_id") (.attr (.enum "Etsi.DmrIpUdp.UdpPortIds") "present_in_extended_header"))
        [.setattr (.name "self") "udp_source_port" (.call (.attr (.attr (.name "self") "_io") "read_bytes") [.int 2])]
        [],
       .if_ (.cmp .eq (.attr (.name "self") "udp_destination_port_id") (.attr (.enum "Etsi.DmrIpUdp.UdpPortIds") "present_in_extended_header"))
        [.setattr (.name "self") "udp_destination_port" (.call (.attr (.attr (.name "self") "_io") "read_bytes") [.int 2])]
        [],
       .setattr (.name "self") "user_data" (.call (.attr (.attr (.name "self") "_io") "read_bytes_full") [])]⟩)]
  properties := []

/-- okdmr/kaitai/etsi/dmr_ip_udp.py:15-79 -/
def DmrIpUdp : ClassDef where
  name := "Etsi.DmrIpUdp"
  methods := [("__init__", ⟨["self", "_io", "_parent", "_root"],
      [.setattr (.name "self") "_io" (.name "_io"),
       .setattr (.name "self") "_parent" (.name "_parent"),
       .setattr (.name "self") "_root" (.ifExp (.name "_root") (.name "_root") (.name "self")),
       .expr (.call (.attr (.name "self") "_read") [])]⟩),
    ("_read", ⟨["self"],
      [.pass_]⟩)]
  properties := []

/-- okdmr/kaitai/etsi/dmr_ip_udp.py -/
def DmrIpUdp.file : File where
  classes := [DmrIpUdp.UdpIpv4CompressedHeader,
    DmrIpUdp]
  enums := [DmrIpUdp.SourceIpAddressIds,
    DmrIpUdp.DestinationIpAddressIds,
    DmrIpUdp.UdpPortIds]

end Dmr.Py.Source.Etsi
