import Verif.Py.Base
/-
Generated by tools/mkpyconform.py: the source file of `Etsi.DmrDataHeader` against the model of its classes.
-/

set_option autoImplicit false
set_option linter.unusedSimpArgs false
set_option maxHeartbeats 1000000

namespace Dmr.Py.ConformEtsi

theorem DmrDataHeader.file : files[20]? = some Source.Etsi.DmrDataHeader.file := rfl

theorem enum_DmrDataHeader_UdtFormats : library.enums.find? (fun e => e.qualified == "Etsi.DmrDataHeader.UdtFormats") = some Source.Etsi.DmrDataHeader.UdtFormats := enum_at 20 _ DmrDataHeader.file 0 Source.Etsi.DmrDataHeader.UdtFormats rfl

@[py] theorem resolve_DmrDataHeader_UdtFormats (v : Nat) : resolve library "Etsi.DmrDataHeader.UdtFormats" (.pv (.int (v : Int))) =
    pure (.pv (EnumVal.toPy "UdtFormats" (resolveEnum Dmr.Etsi.DmrDataHeader.UdtFormats v))) := run_resolve Source.Etsi.DmrDataHeader.UdtFormats enum_DmrDataHeader_UdtFormats (by decide) v

theorem enum_DmrDataHeader_CsbkMbcUdtOpcodes : library.enums.find? (fun e => e.qualified == "Etsi.DmrDataHeader.CsbkMbcUdtOpcodes") = some Source.Etsi.DmrDataHeader.CsbkMbcUdtOpcodes := enum_at 20 _ DmrDataHeader.file 1 Source.Etsi.DmrDataHeader.CsbkMbcUdtOpcodes rfl

@[py] theorem resolve_DmrDataHeader_CsbkMbcUdtOpcodes (v : Nat) : resolve library "Etsi.DmrDataHeader.CsbkMbcUdtOpcodes" (.pv (.int (v : Int))) =
    pure (.pv (EnumVal.toPy "CsbkMbcUdtOpcodes" (resolveEnum Dmr.Etsi.DmrDataHeader.CsbkMbcUdtOpcodes v))) := run_resolve Source.Etsi.DmrDataHeader.CsbkMbcUdtOpcodes enum_DmrDataHeader_CsbkMbcUdtOpcodes (by decide) v

theorem enum_DmrDataHeader_DataPacketFormats : library.enums.find? (fun e => e.qualified == "Etsi.DmrDataHeader.DataPacketFormats") = some Source.Etsi.DmrDataHeader.DataPacketFormats := enum_at 20 _ DmrDataHeader.file 2 Source.Etsi.DmrDataHeader.DataPacketFormats rfl

@[py] theorem resolve_DmrDataHeader_DataPacketFormats (v : Nat) : resolve library "Etsi.DmrDataHeader.DataPacketFormats" (.pv (.int (v : Int))) =
    pure (.pv (EnumVal.toPy "DataPacketFormats" (resolveEnum Dmr.Etsi.DmrDataHeader.DataPacketFormats v))) := run_resolve Source.Etsi.DmrDataHeader.DataPacketFormats enum_DmrDataHeader_DataPacketFormats (by decide) v

@[py] theorem member_DmrDataHeader_DataPacketFormats_data_packet_confirmed : member library "Etsi.DmrDataHeader.DataPacketFormats" "data_packet_confirmed" = pure (.pv (.enum "DataPacketFormats" 3)) := member_of enum_DmrDataHeader_DataPacketFormats rfl

@[py] theorem same_DmrDataHeader_DataPacketFormats_data_packet_confirmed (on : EnumVal Dmr.Etsi.DmrDataHeader.DataPacketFormats) :
    same (.pv (EnumVal.toPy "DataPacketFormats" on)) (.pv (.enum "DataPacketFormats" 3)) = decide (on = .known .data_packet_confirmed) :=
  same_known _ _ Dmr.Etsi.DmrDataHeader.DataPacketFormats.data_packet_confirmed

@[py] theorem member_DmrDataHeader_DataPacketFormats_data_packet_unconfirmed : member library "Etsi.DmrDataHeader.DataPacketFormats" "data_packet_unconfirmed" = pure (.pv (.enum "DataPacketFormats" 2)) := member_of enum_DmrDataHeader_DataPacketFormats rfl

@[py] theorem same_DmrDataHeader_DataPacketFormats_data_packet_unconfirmed (on : EnumVal Dmr.Etsi.DmrDataHeader.DataPacketFormats) :
    same (.pv (EnumVal.toPy "DataPacketFormats" on)) (.pv (.enum "DataPacketFormats" 2)) = decide (on = .known .data_packet_unconfirmed) :=
  same_known _ _ Dmr.Etsi.DmrDataHeader.DataPacketFormats.data_packet_unconfirmed

@[py] theorem member_DmrDataHeader_DataPacketFormats_proprietary : member library "Etsi.DmrDataHeader.DataPacketFormats" "proprietary" = pure (.pv (.enum "DataPacketFormats" 15)) := member_of enum_DmrDataHeader_DataPacketFormats rfl

@[py] theorem same_DmrDataHeader_DataPacketFormats_proprietary (on : EnumVal Dmr.Etsi.DmrDataHeader.DataPacketFormats) :
    same (.pv (EnumVal.toPy "DataPacketFormats" on)) (.pv (.enum "DataPacketFormats" 15)) = decide (on = .known .proprietary) :=
  same_known _ _ Dmr.Etsi.DmrDataHeader.DataPacketFormats.proprietary

@[py] theorem member_DmrDataHeader_DataPacketFormats_response_packet : member library "Etsi.DmrDataHeader.DataPacketFormats" "response_packet" = pure (.pv (.enum "DataPacketFormats" 1)) := member_of enum_DmrDataHeader_DataPacketFormats rfl

@[py] theorem same_DmrDataHeader_DataPacketFormats_response_packet (on : EnumVal Dmr.Etsi.DmrDataHeader.DataPacketFormats) :
    same (.pv (EnumVal.toPy "DataPacketFormats" on)) (.pv (.enum "DataPacketFormats" 1)) = decide (on = .known .response_packet) :=
  same_known _ _ Dmr.Etsi.DmrDataHeader.DataPacketFormats.response_packet

@[py] theorem member_DmrDataHeader_DataPacketFormats_short_data_defined : member library "Etsi.DmrDataHeader.DataPacketFormats" "short_data_defined" = pure (.pv (.enum "DataPacketFormats" 13)) := member_of enum_DmrDataHeader_DataPacketFormats rfl

@[py] theorem same_DmrDataHeader_DataPacketFormats_short_data_defined (on : EnumVal Dmr.Etsi.DmrDataHeader.DataPacketFormats) :
    same (.pv (EnumVal.toPy "DataPacketFormats" on)) (.pv (.enum "DataPacketFormats" 13)) = decide (on = .known .short_data_defined) :=
  same_known _ _ Dmr.Etsi.DmrDataHeader.DataPacketFormats.short_data_defined

@[py] theorem member_DmrDataHeader_DataPacketFormats_short_data_raw_or_status_or_precoded : member library "Etsi.DmrDataHeader.DataPacketFormats" "short_data_raw_or_status_or_precoded" = pure (.pv (.enum "DataPacketFormats" 14)) := member_of enum_DmrDataHeader_DataPacketFormats rfl

@[py] theorem same_DmrDataHeader_DataPacketFormats_short_data_raw_or_status_or_precoded (on : EnumVal Dmr.Etsi.DmrDataHeader.DataPacketFormats) :
    same (.pv (EnumVal.toPy "DataPacketFormats" on)) (.pv (.enum "DataPacketFormats" 14)) = decide (on = .known .short_data_raw_or_status_or_precoded) :=
  same_known _ _ Dmr.Etsi.DmrDataHeader.DataPacketFormats.short_data_raw_or_status_or_precoded

@[py] theorem member_DmrDataHeader_DataPacketFormats_unified_data_transport : member library "Etsi.DmrDataHeader.DataPacketFormats" "unified_data_transport" = pure (.pv (.enum "DataPacketFormats" 0)) := member_of enum_DmrDataHeader_DataPacketFormats rfl

@[py] theorem same_DmrDataHeader_DataPacketFormats_unified_data_transport (on : EnumVal Dmr.Etsi.DmrDataHeader.DataPacketFormats) :
    same (.pv (EnumVal.toPy "DataPacketFormats" on)) (.pv (.enum "DataPacketFormats" 0)) = decide (on = .known .unified_data_transport) :=
  same_known _ _ Dmr.Etsi.DmrDataHeader.DataPacketFormats.unified_data_transport

theorem enum_DmrDataHeader_SapIdentifiers : library.enums.find? (fun e => e.qualified == "Etsi.DmrDataHeader.SapIdentifiers") = some Source.Etsi.DmrDataHeader.SapIdentifiers := enum_at 20 _ DmrDataHeader.file 3 Source.Etsi.DmrDataHeader.SapIdentifiers rfl

@[py] theorem resolve_DmrDataHeader_SapIdentifiers (v : Nat) : resolve library "Etsi.DmrDataHeader.SapIdentifiers" (.pv (.int (v : Int))) =
    pure (.pv (EnumVal.toPy "SapIdentifiers" (resolveEnum Dmr.Etsi.DmrDataHeader.SapIdentifiers v))) := run_resolve Source.Etsi.DmrDataHeader.SapIdentifiers enum_DmrDataHeader_SapIdentifiers (by decide) v

theorem enum_DmrDataHeader_DefinedDataFormats : library.enums.find? (fun e => e.qualified == "Etsi.DmrDataHeader.DefinedDataFormats") = some Source.Etsi.DmrDataHeader.DefinedDataFormats := enum_at 20 _ DmrDataHeader.file 4 Source.Etsi.DmrDataHeader.DefinedDataFormats rfl

@[py] theorem resolve_DmrDataHeader_DefinedDataFormats (v : Nat) : resolve library "Etsi.DmrDataHeader.DefinedDataFormats" (.pv (.int (v : Int))) =
    pure (.pv (EnumVal.toPy "DefinedDataFormats" (resolveEnum Dmr.Etsi.DmrDataHeader.DefinedDataFormats v))) := run_resolve Source.Etsi.DmrDataHeader.DefinedDataFormats enum_DmrDataHeader_DefinedDataFormats (by decide) v

theorem enum_DmrDataHeader_ResponsePacketClasses : library.enums.find? (fun e => e.qualified == "Etsi.DmrDataHeader.ResponsePacketClasses") = some Source.Etsi.DmrDataHeader.ResponsePacketClasses := enum_at 20 _ DmrDataHeader.file 5 Source.Etsi.DmrDataHeader.ResponsePacketClasses rfl

@[py] theorem resolve_DmrDataHeader_ResponsePacketClasses (v : Nat) : resolve library "Etsi.DmrDataHeader.ResponsePacketClasses" (.pv (.int (v : Int))) =
    pure (.pv (EnumVal.toPy "ResponsePacketClasses" (resolveEnum Dmr.Etsi.DmrDataHeader.ResponsePacketClasses v))) := run_resolve Source.Etsi.DmrDataHeader.ResponsePacketClasses enum_DmrDataHeader_ResponsePacketClasses (by decide) v

theorem DmrDataHeader_DataHeaderShortRaw_class : library.class "Etsi.DmrDataHeader.DataHeaderShortRaw" = some Source.Etsi.DmrDataHeader.DataHeaderShortRaw := class_at 20 _ DmrDataHeader.file 0 Source.Etsi.DmrDataHeader.DataHeaderShortRaw rfl

@[py] theorem DmrDataHeader_DataHeaderShortRaw_property (x : String) : library.property "Etsi.DmrDataHeader.DataHeaderShortRaw" x = Source.Etsi.DmrDataHeader.DataHeaderShortRaw.properties.lookup x :=
  property_of _ _ _ _ DmrDataHeader_DataHeaderShortRaw_class

/-- okdmr/kaitai/etsi/dmr_data_header.py:121-159 against `Dmr.Etsi.DmrDataHeader.DataHeaderShortRaw`. -/
@[py] theorem DmrDataHeader_DataHeaderShortRaw_builds (n : Nat) (H : List Obj) (S : List Stream) (k : Nat) (hk : k < S.length) (s : Stream)
    (parent root : Val) : ((calls library (n + 3)).construct "Etsi.DmrDataHeader.DataHeaderShortRaw" [.io k, parent, root]).run ⟨H, S.set k s⟩ =
      after Dmr.Etsi.DmrDataHeader.DataHeaderShortRaw.read s (fun e s' => .raise e ⟨H, S.set k s'⟩)
        (built Dmr.Etsi.DmrDataHeader.DataHeaderShortRaw.toPy k parent root H S) := by
  rw [construct_eq library _ "Etsi.DmrDataHeader.DataHeaderShortRaw" _ _ DmrDataHeader_DataHeaderShortRaw_class rfl rfl]
  py_run [onStream_set _ _ _ _ hk, hk, Dmr.Etsi.DmrDataHeader.DataHeaderShortRaw.read, Dmr.Etsi.DmrDataHeader.DataHeaderShortRaw.toPy, Source.Etsi.DmrDataHeader.DataHeaderShortRaw]

@[py] theorem DmrDataHeader_DataHeaderShortRaw_place (io parent root : Val) (b : Nat) (x : Dmr.Etsi.DmrDataHeader.DataHeaderShortRaw) :
    place io parent root b x.toPy = (.obj b, placeObj io parent root b x.toPy) :=
  place_part _ _ _ _ _ _ (by decide)

theorem DmrDataHeader_DataHeaderProprietary_class : library.class "Etsi.DmrDataHeader.DataHeaderProprietary" = some Source.Etsi.DmrDataHeader.DataHeaderProprietary := class_at 20 _ DmrDataHeader.file 1 Source.Etsi.DmrDataHeader.DataHeaderProprietary rfl

/-- okdmr/kaitai/etsi/dmr_data_header.py:161-180 against `Dmr.Etsi.DmrDataHeader.DataHeaderProprietary`. -/
@[py] theorem DmrDataHeader_DataHeaderProprietary_builds (n : Nat) (H : List Obj) (S : List Stream) (k : Nat) (hk : k < S.length) (s : Stream)
    (parent root : Val) : ((calls library (n + 3)).construct "Etsi.DmrDataHeader.DataHeaderProprietary" [.io k, parent, root]).run ⟨H, S.set k s⟩ =
      after Dmr.Etsi.DmrDataHeader.DataHeaderProprietary.read s (fun e s' => .raise e ⟨H, S.set k s'⟩)
        (built Dmr.Etsi.DmrDataHeader.DataHeaderProprietary.toPy k parent root H S) := by
  rw [construct_eq library _ "Etsi.DmrDataHeader.DataHeaderProprietary" _ _ DmrDataHeader_DataHeaderProprietary_class rfl rfl]
  py_run [onStream_set _ _ _ _ hk, hk, Dmr.Etsi.DmrDataHeader.DataHeaderProprietary.read, Dmr.Etsi.DmrDataHeader.DataHeaderProprietary.toPy]

@[py] theorem DmrDataHeader_DataHeaderProprietary_place (io parent root : Val) (b : Nat) (x : Dmr.Etsi.DmrDataHeader.DataHeaderProprietary) :
    place io parent root b x.toPy = (.obj b, placeObj io parent root b x.toPy) :=
  place_part _ _ _ _ _ _ (by decide)

theorem DmrDataHeader_DataHeaderUndefined_class : library.class "Etsi.DmrDataHeader.DataHeaderUndefined" = some Source.Etsi.DmrDataHeader.DataHeaderUndefined := class_at 20 _ DmrDataHeader.file 2 Source.Etsi.DmrDataHeader.DataHeaderUndefined rfl

/-- okdmr/kaitai/etsi/dmr_data_header.py:182-190 against `Dmr.Etsi.DmrDataHeader.DataHeaderUndefined`. -/
@[py] theorem DmrDataHeader_DataHeaderUndefined_builds (n : Nat) (H : List Obj) (S : List Stream) (k : Nat) (hk : k < S.length) (s : Stream)
    (parent root : Val) : ((calls library (n + 3)).construct "Etsi.DmrDataHeader.DataHeaderUndefined" [.io k, parent, root]).run ⟨H, S.set k s⟩ =
      after Dmr.Etsi.DmrDataHeader.DataHeaderUndefined.read s (fun e s' => .raise e ⟨H, S.set k s'⟩)
        (built Dmr.Etsi.DmrDataHeader.DataHeaderUndefined.toPy k parent root H S) := by
  rw [construct_eq library _ "Etsi.DmrDataHeader.DataHeaderUndefined" _ _ DmrDataHeader_DataHeaderUndefined_class rfl rfl]
  py_run [onStream_set _ _ _ _ hk, hk, Dmr.Etsi.DmrDataHeader.DataHeaderUndefined.read, Dmr.Etsi.DmrDataHeader.DataHeaderUndefined.toPy]

@[py] theorem DmrDataHeader_DataHeaderUndefined_place (io parent root : Val) (b : Nat) (x : Dmr.Etsi.DmrDataHeader.DataHeaderUndefined) :
    place io parent root b x.toPy = (.obj b, placeObj io parent root b x.toPy) :=
  place_part _ _ _ _ _ _ (by decide)

theorem DmrDataHeader_DataHeaderShortStatusPrecoded_class : library.class "Etsi.DmrDataHeader.DataHeaderShortStatusPrecoded" = some Source.Etsi.DmrDataHeader.DataHeaderShortStatusPrecoded := class_at 20 _ DmrDataHeader.file 3 Source.Etsi.DmrDataHeader.DataHeaderShortStatusPrecoded rfl

@[py] theorem DmrDataHeader_DataHeaderShortStatusPrecoded_property (x : String) : library.property "Etsi.DmrDataHeader.DataHeaderShortStatusPrecoded" x = Source.Etsi.DmrDataHeader.DataHeaderShortStatusPrecoded.properties.lookup x :=
  property_of _ _ _ _ DmrDataHeader_DataHeaderShortStatusPrecoded_class

/-- okdmr/kaitai/etsi/dmr_data_header.py:192-228 against `Dmr.Etsi.DmrDataHeader.DataHeaderShortStatusPrecoded`. -/
@[py] theorem DmrDataHeader_DataHeaderShortStatusPrecoded_builds (n : Nat) (H : List Obj) (S : List Stream) (k : Nat) (hk : k < S.length) (s : Stream)
    (parent root : Val) : ((calls library (n + 3)).construct "Etsi.DmrDataHeader.DataHeaderShortStatusPrecoded" [.io k, parent, root]).run ⟨H, S.set k s⟩ =
      after Dmr.Etsi.DmrDataHeader.DataHeaderShortStatusPrecoded.read s (fun e s' => .raise e ⟨H, S.set k s'⟩)
        (built Dmr.Etsi.DmrDataHeader.DataHeaderShortStatusPrecoded.toPy k parent root H S) := by
  rw [construct_eq library _ "Etsi.DmrDataHeader.DataHeaderShortStatusPrecoded" _ _ DmrDataHeader_DataHeaderShortStatusPrecoded_class rfl rfl]
  py_run [onStream_set _ _ _ _ hk, hk, Dmr.Etsi.DmrDataHeader.DataHeaderShortStatusPrecoded.read, Dmr.Etsi.DmrDataHeader.DataHeaderShortStatusPrecoded.toPy, Source.Etsi.DmrDataHeader.DataHeaderShortStatusPrecoded]

@[py] theorem DmrDataHeader_DataHeaderShortStatusPrecoded_place (io parent root : Val) (b : Nat) (x : Dmr.Etsi.DmrDataHeader.DataHeaderShortStatusPrecoded) :
    place io parent root b x.toPy = (.obj b, placeObj io parent root b x.toPy) :=
  place_part _ _ _ _ _ _ (by decide)

theorem DmrDataHeader_DataHeaderResponse_class : library.class "Etsi.DmrDataHeader.DataHeaderResponse" = some Source.Etsi.DmrDataHeader.DataHeaderResponse := class_at 20 _ DmrDataHeader.file 4 Source.Etsi.DmrDataHeader.DataHeaderResponse rfl

/-- okdmr/kaitai/etsi/dmr_data_header.py:230-260 against `Dmr.Etsi.DmrDataHeader.DataHeaderResponse`. -/
@[py] theorem DmrDataHeader_DataHeaderResponse_builds (n : Nat) (H : List Obj) (S : List Stream) (k : Nat) (hk : k < S.length) (s : Stream)
    (parent root : Val) : ((calls library (n + 3)).construct "Etsi.DmrDataHeader.DataHeaderResponse" [.io k, parent, root]).run ⟨H, S.set k s⟩ =
      after Dmr.Etsi.DmrDataHeader.DataHeaderResponse.read s (fun e s' => .raise e ⟨H, S.set k s'⟩)
        (built Dmr.Etsi.DmrDataHeader.DataHeaderResponse.toPy k parent root H S) := by
  rw [construct_eq library _ "Etsi.DmrDataHeader.DataHeaderResponse" _ _ DmrDataHeader_DataHeaderResponse_class rfl rfl]
  py_run [onStream_set _ _ _ _ hk, hk, Dmr.Etsi.DmrDataHeader.DataHeaderResponse.read, Dmr.Etsi.DmrDataHeader.DataHeaderResponse.toPy]

@[py] theorem DmrDataHeader_DataHeaderResponse_place (io parent root : Val) (b : Nat) (x : Dmr.Etsi.DmrDataHeader.DataHeaderResponse) :
    place io parent root b x.toPy = (.obj b, placeObj io parent root b x.toPy) :=
  place_part _ _ _ _ _ _ (by decide)

theorem DmrDataHeader_DataHeaderConfirmed_class : library.class "Etsi.DmrDataHeader.DataHeaderConfirmed" = some Source.Etsi.DmrDataHeader.DataHeaderConfirmed := class_at 20 _ DmrDataHeader.file 5 Source.Etsi.DmrDataHeader.DataHeaderConfirmed rfl

/-- okdmr/kaitai/etsi/dmr_data_header.py:262-291 against `Dmr.Etsi.DmrDataHeader.DataHeaderConfirmed`. -/
@[py] theorem DmrDataHeader_DataHeaderConfirmed_builds (n : Nat) (H : List Obj) (S : List Stream) (k : Nat) (hk : k < S.length) (s : Stream)
    (parent root : Val) : ((calls library (n + 3)).construct "Etsi.DmrDataHeader.DataHeaderConfirmed" [.io k, parent, root]).run ⟨H, S.set k s⟩ =
      after Dmr.Etsi.DmrDataHeader.DataHeaderConfirmed.read s (fun e s' => .raise e ⟨H, S.set k s'⟩)
        (built Dmr.Etsi.DmrDataHeader.DataHeaderConfirmed.toPy k parent root H S) := by
  rw [construct_eq library _ "Etsi.DmrDataHeader.DataHeaderConfirmed" _ _ DmrDataHeader_DataHeaderConfirmed_class rfl rfl]
  py_run [onStream_set _ _ _ _ hk, hk, Dmr.Etsi.DmrDataHeader.DataHeaderConfirmed.read, Dmr.Etsi.DmrDataHeader.DataHeaderConfirmed.toPy]

@[py] theorem DmrDataHeader_DataHeaderConfirmed_place (io parent root : Val) (b : Nat) (x : Dmr.Etsi.DmrDataHeader.DataHeaderConfirmed) :
    place io parent root b x.toPy = (.obj b, placeObj io parent root b x.toPy) :=
  place_part _ _ _ _ _ _ (by decide)

theorem DmrDataHeader_DataHeaderUnconfirmed_class : library.class "Etsi.DmrDataHeader.DataHeaderUnconfirmed" = some Source.Etsi.DmrDataHeader.DataHeaderUnconfirmed := class_at 20 _ DmrDataHeader.file 6 Source.Etsi.DmrDataHeader.DataHeaderUnconfirmed rfl

/-- okdmr/kaitai/etsi/dmr_data_header.py:293-321 against `Dmr.Etsi.DmrDataHeader.DataHeaderUnconfirmed`. -/
@[py] theorem DmrDataHeader_DataHeaderUnconfirmed_builds (n : Nat) (H : List Obj) (S : List Stream) (k : Nat) (hk : k < S.length) (s : Stream)
    (parent root : Val) : ((calls library (n + 3)).construct "Etsi.DmrDataHeader.DataHeaderUnconfirmed" [.io k, parent, root]).run ⟨H, S.set k s⟩ =
      after Dmr.Etsi.DmrDataHeader.DataHeaderUnconfirmed.read s (fun e s' => .raise e ⟨H, S.set k s'⟩)
        (built Dmr.Etsi.DmrDataHeader.DataHeaderUnconfirmed.toPy k parent root H S) := by
  rw [construct_eq library _ "Etsi.DmrDataHeader.DataHeaderUnconfirmed" _ _ DmrDataHeader_DataHeaderUnconfirmed_class rfl rfl]
  py_run [onStream_set _ _ _ _ hk, hk, Dmr.Etsi.DmrDataHeader.DataHeaderUnconfirmed.read, Dmr.Etsi.DmrDataHeader.DataHeaderUnconfirmed.toPy]

@[py] theorem DmrDataHeader_DataHeaderUnconfirmed_place (io parent root : Val) (b : Nat) (x : Dmr.Etsi.DmrDataHeader.DataHeaderUnconfirmed) :
    place io parent root b x.toPy = (.obj b, placeObj io parent root b x.toPy) :=
  place_part _ _ _ _ _ _ (by decide)

theorem DmrDataHeader_DataHeaderShortDefined_class : library.class "Etsi.DmrDataHeader.DataHeaderShortDefined" = some Source.Etsi.DmrDataHeader.DataHeaderShortDefined := class_at 20 _ DmrDataHeader.file 7 Source.Etsi.DmrDataHeader.DataHeaderShortDefined rfl

@[py] theorem DmrDataHeader_DataHeaderShortDefined_property (x : String) : library.property "Etsi.DmrDataHeader.DataHeaderShortDefined" x = Source.Etsi.DmrDataHeader.DataHeaderShortDefined.properties.lookup x :=
  property_of _ _ _ _ DmrDataHeader_DataHeaderShortDefined_class

/-- okdmr/kaitai/etsi/dmr_data_header.py:323-362 against `Dmr.Etsi.DmrDataHeader.DataHeaderShortDefined`. -/
@[py] theorem DmrDataHeader_DataHeaderShortDefined_builds (n : Nat) (H : List Obj) (S : List Stream) (k : Nat) (hk : k < S.length) (s : Stream)
    (parent root : Val) : ((calls library (n + 3)).construct "Etsi.DmrDataHeader.DataHeaderShortDefined" [.io k, parent, root]).run ⟨H, S.set k s⟩ =
      after Dmr.Etsi.DmrDataHeader.DataHeaderShortDefined.read s (fun e s' => .raise e ⟨H, S.set k s'⟩)
        (built Dmr.Etsi.DmrDataHeader.DataHeaderShortDefined.toPy k parent root H S) := by
  rw [construct_eq library _ "Etsi.DmrDataHeader.DataHeaderShortDefined" _ _ DmrDataHeader_DataHeaderShortDefined_class rfl rfl]
  py_run [onStream_set _ _ _ _ hk, hk, Dmr.Etsi.DmrDataHeader.DataHeaderShortDefined.read, Dmr.Etsi.DmrDataHeader.DataHeaderShortDefined.toPy, Source.Etsi.DmrDataHeader.DataHeaderShortDefined]

@[py] theorem DmrDataHeader_DataHeaderShortDefined_place (io parent root : Val) (b : Nat) (x : Dmr.Etsi.DmrDataHeader.DataHeaderShortDefined) :
    place io parent root b x.toPy = (.obj b, placeObj io parent root b x.toPy) :=
  place_part _ _ _ _ _ _ (by decide)

theorem DmrDataHeader_DataHeaderUdt_class : library.class "Etsi.DmrDataHeader.DataHeaderUdt" = some Source.Etsi.DmrDataHeader.DataHeaderUdt := class_at 20 _ DmrDataHeader.file 8 Source.Etsi.DmrDataHeader.DataHeaderUdt rfl

/-- okdmr/kaitai/etsi/dmr_data_header.py:364-397 against `Dmr.Etsi.DmrDataHeader.DataHeaderUdt`. -/
@[py] theorem DmrDataHeader_DataHeaderUdt_builds (n : Nat) (H : List Obj) (S : List Stream) (k : Nat) (hk : k < S.length) (s : Stream)
    (parent root : Val) : ((calls library (n + 3)).construct "Etsi.DmrDataHeader.DataHeaderUdt" [.io k, parent, root]).run ⟨H, S.set k s⟩ =
      after Dmr.Etsi.DmrDataHeader.DataHeaderUdt.read s (fun e s' => .raise e ⟨H, S.set k s'⟩)
        (built Dmr.Etsi.DmrDataHeader.DataHeaderUdt.toPy k parent root H S) := by
  rw [construct_eq library _ "Etsi.DmrDataHeader.DataHeaderUdt" _ _ DmrDataHeader_DataHeaderUdt_class rfl rfl]
  py_run [onStream_set _ _ _ _ hk, hk, Dmr.Etsi.DmrDataHeader.DataHeaderUdt.read, Dmr.Etsi.DmrDataHeader.DataHeaderUdt.toPy]

@[py] theorem DmrDataHeader_DataHeaderUdt_place (io parent root : Val) (b : Nat) (x : Dmr.Etsi.DmrDataHeader.DataHeaderUdt) :
    place io parent root b x.toPy = (.obj b, placeObj io parent root b x.toPy) :=
  place_part _ _ _ _ _ _ (by decide)

theorem DmrDataHeader_class : library.class "Etsi.DmrDataHeader" = some Source.Etsi.DmrDataHeader := class_at 20 _ DmrDataHeader.file 9 Source.Etsi.DmrDataHeader rfl

@[py] theorem DmrDataHeader_property (x : String) : library.property "Etsi.DmrDataHeader" x = Source.Etsi.DmrDataHeader.properties.lookup x :=
  property_of _ _ _ _ DmrDataHeader_class

/-- okdmr/kaitai/etsi/dmr_data_header.py:15-459 against `Dmr.Etsi.DmrDataHeader`. -/
@[py] theorem DmrDataHeader_builds (n : Nat) (H : List Obj) (S : List Stream) (k : Nat) (hk : k < S.length) (s : Stream)
    (parent root : Val) : ((calls library (n + 3)).construct "Etsi.DmrDataHeader" [.io k, parent, root]).run ⟨H, S.set k s⟩ =
      after Dmr.Etsi.DmrDataHeader.read s (fun e s' => .raise e ⟨H, S.set k s'⟩)
        (built Dmr.Etsi.DmrDataHeader.toPy k parent root H S) := by
  rw [construct_eq library _ "Etsi.DmrDataHeader" _ _ DmrDataHeader_class rfl rfl]
  py_run [onStream_set _ _ _ _ hk, hk, Dmr.Etsi.DmrDataHeader.read, Dmr.Etsi.DmrDataHeader.toPy, Dmr.Etsi.DmrDataHeader.readDataBody, Dmr.Etsi.DmrDataHeader.DataUnion.toPy, Source.Etsi.DmrDataHeader]

@[py] theorem DmrDataHeader_short (n k : Nat) : (calls library (n + 3)).construct "Etsi.DmrDataHeader" [.io k] =
    (calls library (n + 3)).construct "Etsi.DmrDataHeader" [.io k, .pv .none, .pv .none] := construct_short _ _ _ _ DmrDataHeader_class rfl _

@[py] theorem DmrDataHeader_place (io parent root : Val) (b : Nat) (x : Dmr.Etsi.DmrDataHeader) :
    place io parent root b x.toPy = (.obj b, placeObj io (.pv .none) (.obj b) b x.toPy) :=
  place_file _ _ _ _ _ _ (by decide)

end Dmr.Py.ConformEtsi
