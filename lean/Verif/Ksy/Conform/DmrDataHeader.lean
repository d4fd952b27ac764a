import Verif.Ksy.Conform.Base
/-
Generated by tools/mkconform.py: the schema of `DmrDataHeader` against the model of the Python classes.
-/

set_option linter.unusedSimpArgs false
set_option maxHeartbeats 1000000

namespace Dmr.Ksy.Etsi

@[ksy] theorem resolve_DmrDataHeader_DataPacketFormats (v : Nat) : Etsi.DmrDataHeader.DataPacketFormats.resolve v = EnumVal.toPy "DataPacketFormats" (resolveEnum Dmr.Etsi.DmrDataHeader.DataPacketFormats v) :=
  resolve_eq _ (by decide) v

@[ksy ↓] theorem read_DmrDataHeader_DataPacketFormats_b4 (ev sub) : readTy ev sub (.bitsEnum 4 Etsi.DmrDataHeader.DataPacketFormats) =
    asEnum Dmr.Etsi.DmrDataHeader.DataPacketFormats (readBitsIntBe 4) >>= fun e => pure (some (EnumVal.toPy "DataPacketFormats" e)) :=
  enum_bits resolve_DmrDataHeader_DataPacketFormats ev sub 4

@[ksy] theorem member_DmrDataHeader_DataPacketFormats_data_packet_confirmed : Etsi.DmrDataHeader.DataPacketFormats.member "data_packet_confirmed" = pure (.enum "DataPacketFormats" 3) := rfl

@[ksy] theorem same_DmrDataHeader_DataPacketFormats_data_packet_confirmed (on : EnumVal Dmr.Etsi.DmrDataHeader.DataPacketFormats) :
    same (EnumVal.toPy "DataPacketFormats" on) (.enum "DataPacketFormats" 3) = decide (on = .known .data_packet_confirmed) :=
  same_known _ _ Dmr.Etsi.DmrDataHeader.DataPacketFormats.data_packet_confirmed

@[ksy] theorem member_DmrDataHeader_DataPacketFormats_data_packet_unconfirmed : Etsi.DmrDataHeader.DataPacketFormats.member "data_packet_unconfirmed" = pure (.enum "DataPacketFormats" 2) := rfl

@[ksy] theorem same_DmrDataHeader_DataPacketFormats_data_packet_unconfirmed (on : EnumVal Dmr.Etsi.DmrDataHeader.DataPacketFormats) :
    same (EnumVal.toPy "DataPacketFormats" on) (.enum "DataPacketFormats" 2) = decide (on = .known .data_packet_unconfirmed) :=
  same_known _ _ Dmr.Etsi.DmrDataHeader.DataPacketFormats.data_packet_unconfirmed

@[ksy] theorem member_DmrDataHeader_DataPacketFormats_proprietary : Etsi.DmrDataHeader.DataPacketFormats.member "proprietary" = pure (.enum "DataPacketFormats" 15) := rfl

@[ksy] theorem same_DmrDataHeader_DataPacketFormats_proprietary (on : EnumVal Dmr.Etsi.DmrDataHeader.DataPacketFormats) :
    same (EnumVal.toPy "DataPacketFormats" on) (.enum "DataPacketFormats" 15) = decide (on = .known .proprietary) :=
  same_known _ _ Dmr.Etsi.DmrDataHeader.DataPacketFormats.proprietary

@[ksy] theorem member_DmrDataHeader_DataPacketFormats_response_packet : Etsi.DmrDataHeader.DataPacketFormats.member "response_packet" = pure (.enum "DataPacketFormats" 1) := rfl

@[ksy] theorem same_DmrDataHeader_DataPacketFormats_response_packet (on : EnumVal Dmr.Etsi.DmrDataHeader.DataPacketFormats) :
    same (EnumVal.toPy "DataPacketFormats" on) (.enum "DataPacketFormats" 1) = decide (on = .known .response_packet) :=
  same_known _ _ Dmr.Etsi.DmrDataHeader.DataPacketFormats.response_packet

@[ksy] theorem member_DmrDataHeader_DataPacketFormats_short_data_defined : Etsi.DmrDataHeader.DataPacketFormats.member "short_data_defined" = pure (.enum "DataPacketFormats" 13) := rfl

@[ksy] theorem same_DmrDataHeader_DataPacketFormats_short_data_defined (on : EnumVal Dmr.Etsi.DmrDataHeader.DataPacketFormats) :
    same (EnumVal.toPy "DataPacketFormats" on) (.enum "DataPacketFormats" 13) = decide (on = .known .short_data_defined) :=
  same_known _ _ Dmr.Etsi.DmrDataHeader.DataPacketFormats.short_data_defined

@[ksy] theorem member_DmrDataHeader_DataPacketFormats_short_data_raw_or_status_or_precoded : Etsi.DmrDataHeader.DataPacketFormats.member "short_data_raw_or_status_or_precoded" = pure (.enum "DataPacketFormats" 14) := rfl

@[ksy] theorem same_DmrDataHeader_DataPacketFormats_short_data_raw_or_status_or_precoded (on : EnumVal Dmr.Etsi.DmrDataHeader.DataPacketFormats) :
    same (EnumVal.toPy "DataPacketFormats" on) (.enum "DataPacketFormats" 14) = decide (on = .known .short_data_raw_or_status_or_precoded) :=
  same_known _ _ Dmr.Etsi.DmrDataHeader.DataPacketFormats.short_data_raw_or_status_or_precoded

@[ksy] theorem member_DmrDataHeader_DataPacketFormats_unified_data_transport : Etsi.DmrDataHeader.DataPacketFormats.member "unified_data_transport" = pure (.enum "DataPacketFormats" 0) := rfl

@[ksy] theorem same_DmrDataHeader_DataPacketFormats_unified_data_transport (on : EnumVal Dmr.Etsi.DmrDataHeader.DataPacketFormats) :
    same (EnumVal.toPy "DataPacketFormats" on) (.enum "DataPacketFormats" 0) = decide (on = .known .unified_data_transport) :=
  same_known _ _ Dmr.Etsi.DmrDataHeader.DataPacketFormats.unified_data_transport

@[ksy] theorem resolve_DmrDataHeader_SapIdentifiers (v : Nat) : Etsi.DmrDataHeader.SapIdentifiers.resolve v = EnumVal.toPy "SapIdentifiers" (resolveEnum Dmr.Etsi.DmrDataHeader.SapIdentifiers v) :=
  resolve_eq _ (by decide) v

@[ksy ↓] theorem read_DmrDataHeader_SapIdentifiers_b4 (ev sub) : readTy ev sub (.bitsEnum 4 Etsi.DmrDataHeader.SapIdentifiers) =
    asEnum Dmr.Etsi.DmrDataHeader.SapIdentifiers (readBitsIntBe 4) >>= fun e => pure (some (EnumVal.toPy "SapIdentifiers" e)) :=
  enum_bits resolve_DmrDataHeader_SapIdentifiers ev sub 4

@[ksy] theorem resolve_DmrDataHeader_UdtFormats (v : Nat) : Etsi.DmrDataHeader.UdtFormats.resolve v = EnumVal.toPy "UdtFormats" (resolveEnum Dmr.Etsi.DmrDataHeader.UdtFormats v) :=
  resolve_eq _ (by decide) v

@[ksy ↓] theorem read_DmrDataHeader_UdtFormats_b4 (ev sub) : readTy ev sub (.bitsEnum 4 Etsi.DmrDataHeader.UdtFormats) =
    asEnum Dmr.Etsi.DmrDataHeader.UdtFormats (readBitsIntBe 4) >>= fun e => pure (some (EnumVal.toPy "UdtFormats" e)) :=
  enum_bits resolve_DmrDataHeader_UdtFormats ev sub 4

@[ksy] theorem resolve_DmrDataHeader_CsbkMbcUdtOpcodes (v : Nat) : Etsi.DmrDataHeader.CsbkMbcUdtOpcodes.resolve v = EnumVal.toPy "CsbkMbcUdtOpcodes" (resolveEnum Dmr.Etsi.DmrDataHeader.CsbkMbcUdtOpcodes v) :=
  resolve_eq _ (by decide) v

@[ksy ↓] theorem read_DmrDataHeader_CsbkMbcUdtOpcodes_b6 (ev sub) : readTy ev sub (.bitsEnum 6 Etsi.DmrDataHeader.CsbkMbcUdtOpcodes) =
    asEnum Dmr.Etsi.DmrDataHeader.CsbkMbcUdtOpcodes (readBitsIntBe 6) >>= fun e => pure (some (EnumVal.toPy "CsbkMbcUdtOpcodes" e)) :=
  enum_bits resolve_DmrDataHeader_CsbkMbcUdtOpcodes ev sub 6

@[ksy] theorem resolve_DmrDataHeader_DefinedDataFormats (v : Nat) : Etsi.DmrDataHeader.DefinedDataFormats.resolve v = EnumVal.toPy "DefinedDataFormats" (resolveEnum Dmr.Etsi.DmrDataHeader.DefinedDataFormats v) :=
  resolve_eq _ (by decide) v

@[ksy ↓] theorem read_DmrDataHeader_DefinedDataFormats_b6 (ev sub) : readTy ev sub (.bitsEnum 6 Etsi.DmrDataHeader.DefinedDataFormats) =
    asEnum Dmr.Etsi.DmrDataHeader.DefinedDataFormats (readBitsIntBe 6) >>= fun e => pure (some (EnumVal.toPy "DefinedDataFormats" e)) :=
  enum_bits resolve_DmrDataHeader_DefinedDataFormats ev sub 6

@[ksy] theorem resolve_DmrDataHeader_ResponsePacketClasses (v : Nat) : Etsi.DmrDataHeader.ResponsePacketClasses.resolve v = EnumVal.toPy "ResponsePacketClasses" (resolveEnum Dmr.Etsi.DmrDataHeader.ResponsePacketClasses v) :=
  resolve_eq _ (by decide) v

@[ksy ↓] theorem read_DmrDataHeader_ResponsePacketClasses_b2 (ev sub) : readTy ev sub (.bitsEnum 2 Etsi.DmrDataHeader.ResponsePacketClasses) =
    asEnum Dmr.Etsi.DmrDataHeader.ResponsePacketClasses (readBitsIntBe 2) >>= fun e => pure (some (EnumVal.toPy "ResponsePacketClasses" e)) :=
  enum_bits resolve_DmrDataHeader_ResponsePacketClasses ev sub 2

/-- okdmr/kaitai/etsi/dmr_data_header.ksy:94-96 against `Dmr.Etsi.DmrDataHeader.DataHeaderUndefined`. -/
@[ksy ↓] theorem DmrDataHeader_DataHeaderUndefined_conforms (n : Nat) (sc : Scope) :
    parse (n + 1) sc Etsi.DmrDataHeader.DataHeaderUndefined = (fun x => view (Dmr.Etsi.DmrDataHeader.DataHeaderUndefined.toPy x)) <$> Dmr.Etsi.DmrDataHeader.DataHeaderUndefined.read := by
  rw [parse_succ]
  ksy_simp [Dmr.Etsi.DmrDataHeader.DataHeaderUndefined.read, Dmr.Etsi.DmrDataHeader.DataHeaderUndefined.toPy]

/-- okdmr/kaitai/etsi/dmr_data_header.ksy:98-113 against `Dmr.Etsi.DmrDataHeader.DataHeaderProprietary`. -/
@[ksy ↓] theorem DmrDataHeader_DataHeaderProprietary_conforms (n : Nat) (sc : Scope) :
    parse (n + 1) sc Etsi.DmrDataHeader.DataHeaderProprietary = (fun x => view (Dmr.Etsi.DmrDataHeader.DataHeaderProprietary.toPy x)) <$> Dmr.Etsi.DmrDataHeader.DataHeaderProprietary.read := by
  rw [parse_succ]
  ksy_simp [Dmr.Etsi.DmrDataHeader.DataHeaderProprietary.read, Dmr.Etsi.DmrDataHeader.DataHeaderProprietary.toPy]

/-- okdmr/kaitai/etsi/dmr_data_header.ksy:115-156 against `Dmr.Etsi.DmrDataHeader.DataHeaderUdt`. -/
@[ksy ↓] theorem DmrDataHeader_DataHeaderUdt_conforms (n : Nat) (sc : Scope) :
    parse (n + 1) sc Etsi.DmrDataHeader.DataHeaderUdt = (fun x => view (Dmr.Etsi.DmrDataHeader.DataHeaderUdt.toPy x)) <$> Dmr.Etsi.DmrDataHeader.DataHeaderUdt.read := by
  rw [parse_succ]
  ksy_simp [Dmr.Etsi.DmrDataHeader.DataHeaderUdt.read, Dmr.Etsi.DmrDataHeader.DataHeaderUdt.toPy]

/-- okdmr/kaitai/etsi/dmr_data_header.ksy:158-196 against `Dmr.Etsi.DmrDataHeader.DataHeaderResponse`. -/
@[ksy ↓] theorem DmrDataHeader_DataHeaderResponse_conforms (n : Nat) (sc : Scope) :
    parse (n + 1) sc Etsi.DmrDataHeader.DataHeaderResponse = (fun x => view (Dmr.Etsi.DmrDataHeader.DataHeaderResponse.toPy x)) <$> Dmr.Etsi.DmrDataHeader.DataHeaderResponse.read := by
  rw [parse_succ]
  ksy_simp [Dmr.Etsi.DmrDataHeader.DataHeaderResponse.read, Dmr.Etsi.DmrDataHeader.DataHeaderResponse.toPy]

/-- okdmr/kaitai/etsi/dmr_data_header.ksy:198-232 against `Dmr.Etsi.DmrDataHeader.DataHeaderUnconfirmed`. -/
@[ksy ↓] theorem DmrDataHeader_DataHeaderUnconfirmed_conforms (n : Nat) (sc : Scope) :
    parse (n + 1) sc Etsi.DmrDataHeader.DataHeaderUnconfirmed = (fun x => view (Dmr.Etsi.DmrDataHeader.DataHeaderUnconfirmed.toPy x)) <$> Dmr.Etsi.DmrDataHeader.DataHeaderUnconfirmed.read := by
  rw [parse_succ]
  ksy_simp [Dmr.Etsi.DmrDataHeader.DataHeaderUnconfirmed.read, Dmr.Etsi.DmrDataHeader.DataHeaderUnconfirmed.toPy]

/-- okdmr/kaitai/etsi/dmr_data_header.ksy:234-269 against `Dmr.Etsi.DmrDataHeader.DataHeaderConfirmed`. -/
@[ksy ↓] theorem DmrDataHeader_DataHeaderConfirmed_conforms (n : Nat) (sc : Scope) :
    parse (n + 1) sc Etsi.DmrDataHeader.DataHeaderConfirmed = (fun x => view (Dmr.Etsi.DmrDataHeader.DataHeaderConfirmed.toPy x)) <$> Dmr.Etsi.DmrDataHeader.DataHeaderConfirmed.read := by
  rw [parse_succ]
  ksy_simp [Dmr.Etsi.DmrDataHeader.DataHeaderConfirmed.read, Dmr.Etsi.DmrDataHeader.DataHeaderConfirmed.toPy]

/-- okdmr/kaitai/etsi/dmr_data_header.ksy:271-310 against `Dmr.Etsi.DmrDataHeader.DataHeaderShortRaw`. -/
@[ksy ↓] theorem DmrDataHeader_DataHeaderShortRaw_conforms (n : Nat) (sc : Scope) :
    parse (n + 1) sc Etsi.DmrDataHeader.DataHeaderShortRaw = (fun x => view (Dmr.Etsi.DmrDataHeader.DataHeaderShortRaw.toPy x)) <$> Dmr.Etsi.DmrDataHeader.DataHeaderShortRaw.read := by
  rw [parse_succ]
  ksy_simp [Dmr.Etsi.DmrDataHeader.DataHeaderShortRaw.read, Dmr.Etsi.DmrDataHeader.DataHeaderShortRaw.toPy]

/-- okdmr/kaitai/etsi/dmr_data_header.ksy:312-350 against `Dmr.Etsi.DmrDataHeader.DataHeaderShortDefined`. -/
@[ksy ↓] theorem DmrDataHeader_DataHeaderShortDefined_conforms (n : Nat) (sc : Scope) :
    parse (n + 1) sc Etsi.DmrDataHeader.DataHeaderShortDefined = (fun x => view (Dmr.Etsi.DmrDataHeader.DataHeaderShortDefined.toPy x)) <$> Dmr.Etsi.DmrDataHeader.DataHeaderShortDefined.read := by
  rw [parse_succ]
  ksy_simp [Dmr.Etsi.DmrDataHeader.DataHeaderShortDefined.read, Dmr.Etsi.DmrDataHeader.DataHeaderShortDefined.toPy]

/-- okdmr/kaitai/etsi/dmr_data_header.ksy:352-385 against `Dmr.Etsi.DmrDataHeader.DataHeaderShortStatusPrecoded`. -/
@[ksy ↓] theorem DmrDataHeader_DataHeaderShortStatusPrecoded_conforms (n : Nat) (sc : Scope) :
    parse (n + 1) sc Etsi.DmrDataHeader.DataHeaderShortStatusPrecoded = (fun x => view (Dmr.Etsi.DmrDataHeader.DataHeaderShortStatusPrecoded.toPy x)) <$> Dmr.Etsi.DmrDataHeader.DataHeaderShortStatusPrecoded.read := by
  rw [parse_succ]
  ksy_simp [Dmr.Etsi.DmrDataHeader.DataHeaderShortStatusPrecoded.read, Dmr.Etsi.DmrDataHeader.DataHeaderShortStatusPrecoded.toPy]

/-- okdmr/kaitai/etsi/dmr_data_header.ksy:1-408 against `Dmr.Etsi.DmrDataHeader`. -/
@[ksy ↓] theorem DmrDataHeader_conforms (n : Nat) (sc : Scope) :
    parse (n + 2) sc Etsi.DmrDataHeader = (fun x => view (Dmr.Etsi.DmrDataHeader.toPy x)) <$> Dmr.Etsi.DmrDataHeader.read := by
  rw [parse_succ]
  ksy_simp [Dmr.Etsi.DmrDataHeader.read, Dmr.Etsi.DmrDataHeader.toPy]

end Dmr.Ksy.Etsi
