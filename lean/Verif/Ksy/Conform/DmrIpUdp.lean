import Verif.Ksy.Conform.Base
/-
Generated by tools/mkconform.py: the schema of `DmrIpUdp` against the model of the Python classes.
-/

set_option linter.unusedSimpArgs false
set_option maxHeartbeats 1000000

namespace Dmr.Ksy.Etsi

@[ksy] theorem resolve_DmrIpUdp_SourceIpAddressIds (v : Nat) : Etsi.DmrIpUdp.SourceIpAddressIds.resolve v = EnumVal.toPy "SourceIpAddressIds" (resolveEnum Dmr.Etsi.DmrIpUdp.SourceIpAddressIds v) :=
  resolve_eq _ (by decide) v

@[ksy ↓] theorem read_DmrIpUdp_SourceIpAddressIds_b4 (ev sub) : readTy ev sub (.bitsEnum 4 Etsi.DmrIpUdp.SourceIpAddressIds) =
    asEnum Dmr.Etsi.DmrIpUdp.SourceIpAddressIds (readBitsIntBe 4) >>= fun e => pure (some (EnumVal.toPy "SourceIpAddressIds" e)) :=
  enum_bits resolve_DmrIpUdp_SourceIpAddressIds ev sub 4

@[ksy] theorem resolve_DmrIpUdp_DestinationIpAddressIds (v : Nat) : Etsi.DmrIpUdp.DestinationIpAddressIds.resolve v = EnumVal.toPy "DestinationIpAddressIds" (resolveEnum Dmr.Etsi.DmrIpUdp.DestinationIpAddressIds v) :=
  resolve_eq _ (by decide) v

@[ksy ↓] theorem read_DmrIpUdp_DestinationIpAddressIds_b4 (ev sub) : readTy ev sub (.bitsEnum 4 Etsi.DmrIpUdp.DestinationIpAddressIds) =
    asEnum Dmr.Etsi.DmrIpUdp.DestinationIpAddressIds (readBitsIntBe 4) >>= fun e => pure (some (EnumVal.toPy "DestinationIpAddressIds" e)) :=
  enum_bits resolve_DmrIpUdp_DestinationIpAddressIds ev sub 4

@[ksy] theorem resolve_DmrIpUdp_UdpPortIds (v : Nat) : Etsi.DmrIpUdp.UdpPortIds.resolve v = EnumVal.toPy "UdpPortIds" (resolveEnum Dmr.Etsi.DmrIpUdp.UdpPortIds v) :=
  resolve_eq _ (by decide) v

@[ksy ↓] theorem read_DmrIpUdp_UdpPortIds_b7 (ev sub) : readTy ev sub (.bitsEnum 7 Etsi.DmrIpUdp.UdpPortIds) =
    asEnum Dmr.Etsi.DmrIpUdp.UdpPortIds (readBitsIntBe 7) >>= fun e => pure (some (EnumVal.toPy "UdpPortIds" e)) :=
  enum_bits resolve_DmrIpUdp_UdpPortIds ev sub 7

@[ksy] theorem member_DmrIpUdp_UdpPortIds_present_in_extended_header : Etsi.DmrIpUdp.UdpPortIds.member "present_in_extended_header" = pure (.enum "UdpPortIds" 0) := rfl

@[ksy] theorem same_DmrIpUdp_UdpPortIds_present_in_extended_header (on : EnumVal Dmr.Etsi.DmrIpUdp.UdpPortIds) :
    same (EnumVal.toPy "UdpPortIds" on) (.enum "UdpPortIds" 0) = decide (on = .known .present_in_extended_header) :=
  same_known _ _ Dmr.Etsi.DmrIpUdp.UdpPortIds.present_in_extended_header

/-- okdmr/kaitai/etsi/dmr_ip_udp.ksy:20-52 against `Dmr.Etsi.DmrIpUdp.UdpIpv4CompressedHeader`. -/
@[ksy ↓] theorem DmrIpUdp_UdpIpv4CompressedHeader_conforms (n : Nat) (sc : Scope) :
    parse (n + 1) sc Etsi.DmrIpUdp.UdpIpv4CompressedHeader = (fun x => view (Dmr.Etsi.DmrIpUdp.UdpIpv4CompressedHeader.toPy x)) <$> Dmr.Etsi.DmrIpUdp.UdpIpv4CompressedHeader.read := by
  rw [parse_succ]
  ksy_simp [Dmr.Etsi.DmrIpUdp.UdpIpv4CompressedHeader.read, Dmr.Etsi.DmrIpUdp.UdpIpv4CompressedHeader.toPy]

/-- okdmr/kaitai/etsi/dmr_ip_udp.ksy:1-52 against `Dmr.Etsi.DmrIpUdp`. -/
@[ksy ↓] theorem DmrIpUdp_conforms (n : Nat) (sc : Scope) :
    parse (n + 1) sc Etsi.DmrIpUdp = (fun x => view (Dmr.Etsi.DmrIpUdp.toPy x)) <$> Dmr.Etsi.DmrIpUdp.read := by
  rw [parse_succ]
  ksy_simp [Dmr.Etsi.DmrIpUdp.read, Dmr.Etsi.DmrIpUdp.toPy]

end Dmr.Ksy.Etsi
