import Verif.Py.Base
/-
Generated by tools/mkpyconform.py: the source file of `Etsi.DmrIpUdp` against the model of its classes.
-/

set_option autoImplicit false
set_option linter.unusedSimpArgs false
set_option maxHeartbeats 1000000

namespace Dmr.Py.ConformEtsi

theorem DmrIpUdp.file : files[21]? = some Source.Etsi.DmrIpUdp.file := rfl

theorem enum_DmrIpUdp_SourceIpAddressIds : library.enums.find? (fun e => e.qualified == "Etsi.DmrIpUdp.SourceIpAddressIds") = some Source.Etsi.DmrIpUdp.SourceIpAddressIds := enum_at 21 _ DmrIpUdp.file 0 Source.Etsi.DmrIpUdp.SourceIpAddressIds rfl

@[py] theorem resolve_DmrIpUdp_SourceIpAddressIds (v : Nat) : resolve library "Etsi.DmrIpUdp.SourceIpAddressIds" (.pv (.int (v : Int))) =
    pure (.pv (EnumVal.toPy "SourceIpAddressIds" (resolveEnum Dmr.Etsi.DmrIpUdp.SourceIpAddressIds v))) := run_resolve Source.Etsi.DmrIpUdp.SourceIpAddressIds enum_DmrIpUdp_SourceIpAddressIds (by decide) v

theorem enum_DmrIpUdp_DestinationIpAddressIds : library.enums.find? (fun e => e.qualified == "Etsi.DmrIpUdp.DestinationIpAddressIds") = some Source.Etsi.DmrIpUdp.DestinationIpAddressIds := enum_at 21 _ DmrIpUdp.file 1 Source.Etsi.DmrIpUdp.DestinationIpAddressIds rfl

@[py] theorem resolve_DmrIpUdp_DestinationIpAddressIds (v : Nat) : resolve library "Etsi.DmrIpUdp.DestinationIpAddressIds" (.pv (.int (v : Int))) =
    pure (.pv (EnumVal.toPy "DestinationIpAddressIds" (resolveEnum Dmr.Etsi.DmrIpUdp.DestinationIpAddressIds v))) := run_resolve Source.Etsi.DmrIpUdp.DestinationIpAddressIds enum_DmrIpUdp_DestinationIpAddressIds (by decide) v

theorem enum_DmrIpUdp_UdpPortIds : library.enums.find? (fun e => e.qualified == "Etsi.DmrIpUdp.UdpPortIds") = some Source.Etsi.DmrIpUdp.UdpPortIds := enum_at 21 _ DmrIpUdp.file 2 Source.Etsi.DmrIpUdp.UdpPortIds rfl

@[py] theorem resolve_DmrIpUdp_UdpPortIds (v : Nat) : resolve library "Etsi.DmrIpUdp.UdpPortIds" (.pv (.int (v : Int))) =
    pure (.pv (EnumVal.toPy "UdpPortIds" (resolveEnum Dmr.Etsi.DmrIpUdp.UdpPortIds v))) := run_resolve Source.Etsi.DmrIpUdp.UdpPortIds enum_DmrIpUdp_UdpPortIds (by decide) v

@[py] theorem member_DmrIpUdp_UdpPortIds_present_in_extended_header : member library "Etsi.DmrIpUdp.UdpPortIds" "present_in_extended_header" = pure (.pv (.enum "UdpPortIds" 0)) := member_of enum_DmrIpUdp_UdpPortIds rfl

@[py] theorem same_DmrIpUdp_UdpPortIds_present_in_extended_header (on : EnumVal Dmr.Etsi.DmrIpUdp.UdpPortIds) :
    same (.pv (EnumVal.toPy "UdpPortIds" on)) (.pv (.enum "UdpPortIds" 0)) = decide (on = .known .present_in_extended_header) :=
  same_known _ _ Dmr.Etsi.DmrIpUdp.UdpPortIds.present_in_extended_header

theorem DmrIpUdp_UdpIpv4CompressedHeader_class : library.class "Etsi.DmrIpUdp.UdpIpv4CompressedHeader" = some Source.Etsi.DmrIpUdp.UdpIpv4CompressedHeader := class_at 21 _ DmrIpUdp.file 0 Source.Etsi.DmrIpUdp.UdpIpv4CompressedHeader rfl

/-- okdmr/kaitai/etsi/dmr_ip_udp.py:41-79 against `Dmr.Etsi.DmrIpUdp.UdpIpv4CompressedHeader`. -/
@[py] theorem DmrIpUdp_UdpIpv4CompressedHeader_builds (n : Nat) (H : List Obj) (S : List Stream) (k : Nat) (hk : k < S.length) (s : Stream)
    (parent root : Val) : ((calls library (n + 3)).construct "Etsi.DmrIpUdp.UdpIpv4CompressedHeader" [.io k, parent, root]).run ⟨H, S.set k s⟩ =
      after Dmr.Etsi.DmrIpUdp.UdpIpv4CompressedHeader.read s (fun e s' => .raise e ⟨H, S.set k s'⟩)
        (built Dmr.Etsi.DmrIpUdp.UdpIpv4CompressedHeader.toPy k parent root H S) := by
  rw [construct_eq library _ "Etsi.DmrIpUdp.UdpIpv4CompressedHeader" _ _ DmrIpUdp_UdpIpv4CompressedHeader_class rfl rfl]
  py_run [onStream_set _ _ _ _ hk, hk, Dmr.Etsi.DmrIpUdp.UdpIpv4CompressedHeader.read, Dmr.Etsi.DmrIpUdp.UdpIpv4CompressedHeader.toPy]

@[py] theorem DmrIpUdp_UdpIpv4CompressedHeader_place (io parent root : Val) (b : Nat) (x : Dmr.Etsi.DmrIpUdp.UdpIpv4CompressedHeader) :
    place io parent root b x.toPy = (.obj b, placeObj io parent root b x.toPy) :=
  place_part _ _ _ _ _ _ (by decide)

theorem DmrIpUdp_class : library.class "Etsi.DmrIpUdp" = some Source.Etsi.DmrIpUdp := class_at 21 _ DmrIpUdp.file 1 Source.Etsi.DmrIpUdp rfl

/-- okdmr/kaitai/etsi/dmr_ip_udp.py:15-79 against `Dmr.Etsi.DmrIpUdp`. -/
@[py] theorem DmrIpUdp_builds (n : Nat) (H : List Obj) (S : List Stream) (k : Nat) (hk : k < S.length) (s : Stream)
    (parent root : Val) : ((calls library (n + 3)).construct "Etsi.DmrIpUdp" [.io k, parent, root]).run ⟨H, S.set k s⟩ =
      after Dmr.Etsi.DmrIpUdp.read s (fun e s' => .raise e ⟨H, S.set k s'⟩)
        (built Dmr.Etsi.DmrIpUdp.toPy k parent root H S) := by
  rw [construct_eq library _ "Etsi.DmrIpUdp" _ _ DmrIpUdp_class rfl rfl]
  py_run [onStream_set _ _ _ _ hk, hk, Dmr.Etsi.DmrIpUdp.read, Dmr.Etsi.DmrIpUdp.toPy]

@[py] theorem DmrIpUdp_short (n k : Nat) : (calls library (n + 3)).construct "Etsi.DmrIpUdp" [.io k] =
    (calls library (n + 3)).construct "Etsi.DmrIpUdp" [.io k, .pv .none, .pv .none] := construct_short _ _ _ _ DmrIpUdp_class rfl _

@[py] theorem DmrIpUdp_place (io parent root : Val) (b : Nat) (x : Dmr.Etsi.DmrIpUdp) :
    place io parent root b x.toPy = (.obj b, placeObj io (.pv .none) (.obj b) b x.toPy) :=
  place_file _ _ _ _ _ _ (by decide)

end Dmr.Py.ConformEtsi
