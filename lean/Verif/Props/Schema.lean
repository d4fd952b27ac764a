import Verif.Ksy.Conform.All
import Verif.Ksy.Conform.Instances
/-
C47: the checked-in Python decoders implement the checked-in schemas okdmr/kaitai/*/*.ksy.

The separate specification is the schemas themselves (Verif/Ksy/Schema.lean, transcribed from the .ksy files) with the meaning of
the Kaitai language (Verif/Ksy/Lang.lean). `view` hides the attributes whose names begin with an underscore, of which a schema
does not speak (`_io`, `_parent`, `_root`, the raw bytes of sub-streams, the caches of properties).
-/

namespace Dmr

open Ksy

/-- C47. Every class that stands for a schema file decodes every byte string as its schema says: both give the same object (the
same attributes, in the same order, with the same values; an attribute is absent from the one exactly if it is absent from the
other), or both raise the same exception. -/
theorem C47_from_bytes (c : PyClass) (hc : c ∈ fileClasses) (n : Nat) (hn : 6 ≤ n) (sc : Scope) (b : Bytes) :
    fromBytes (parse n sc c.schema) b = view <$> fromBytes c.read b := by
  obtain ⟨m, rfl⟩ := Nat.exists_eq_add_of_le hn
  rw [Nat.add_comm, fileClasses_conform c hc m sc]
  unfold fromBytes
  show (Rd.bind c.read _ _).1 = _
  unfold Rd.bind
  rcases c.read (Stream.new b) with ⟨_ | _, _⟩ <;> rfl

/-- C47. On a stream that others share, from any position and after any number of pending bits, a class also leaves the stream
as its schema says: this holds for the classes of whole files and for those nested in them. -/
theorem C47_on_stream (c : PyClass) (hc : c ∈ fileClasses ∨ c ∈ innerClasses) (n : Nat) (hn : 6 ≤ n) (sc : Scope) (s : Stream) :
    parse n sc c.schema s = (view <$> (c.read s).1, (c.read s).2) := by
  obtain ⟨m, rfl⟩ := Nat.exists_eq_add_of_le hn
  have h : parse (m + 6) sc c.schema = view <$> c.read := by
    rcases hc with hc | hc
    · exact fileClasses_conform c hc m sc
    · exact innerClasses_conform c hc m sc
  rw [Nat.add_comm, h]
  show Rd.bind c.read _ s = _
  unfold Rd.bind
  rcases c.read s with ⟨_ | _, _⟩ <;> rfl

example (sc : Scope) (s : Stream) := C47_on_stream ⟨_, Ksy.Hytera.RadioIp, Hytera.RadioIp.toPy <$> Hytera.RadioIp.read⟩
  (.inl (List.mem_of_getElem? (i := 0) rfl)) 6 (Nat.le_refl _) sc s

/-- C47. The properties that compute a value from the attributes have the value that the schema gives to the instance of that
name. -/
theorem C47_values (n : Nat) (root : Frame) :
    (∀ x : Hytera.RadioId, instanceOf (n + 1) Ksy.Hytera.RadioId x.toPy root "radio_id" = pure (.int (Int.ofNat x.radio_id))) ∧
    (∀ x : Hytera.RadioIp, instanceOf (n + 1) Ksy.Hytera.RadioIp x.toPy root "radio_id" = pure (.int (Int.ofNat x.radio_id))) ∧
    (∀ x : Hytera.RadioIp, instanceOf (n + 1) Ksy.Hytera.RadioIp x.toPy root "radio_ip" = pure (.str x.radio_ip)) ∧
    (∀ x : Hytera.Gpsdata, instanceOf (n + 1) Ksy.Hytera.Gpsdata x.toPy root "gps_available" =
      always_ (.bool <$> x.gps_available)) ∧
    (∀ x : Hytera.IpSiteConnectProtocol, instanceOf (n + 1) Ksy.Hytera.IpSiteConnectProtocol x.toPy root "source_radio_id" =
      pure (.int (Int.ofNat x.source_radio_id))) ∧
    (∀ x : Hytera.IpSiteConnectProtocol, instanceOf (n + 1) Ksy.Hytera.IpSiteConnectProtocol x.toPy root "destination_radio_id" =
      pure (.int (Int.ofNat x.destination_radio_id))) ∧
    (∀ x : Hytera.IpSiteConnectProtocol, instanceOf (n + 1) Ksy.Hytera.IpSiteConnectProtocol x.toPy root "color_code" =
      pure (.int (Int.ofNat x.color_code))) ∧
    (∀ x : Hytera.IpSiteConnectProtocol, instanceOf (n + 1) Ksy.Hytera.IpSiteConnectProtocol x.toPy root "is_wakeup" =
      pure (.bool x.is_wakeup)) ∧
    (∀ x : Etsi.DmrDataHeader.DataHeaderShortRaw,
      instanceOf (n + 1) Ksy.Etsi.DmrDataHeader.DataHeaderShortRaw x.toPy root "appended_blocks" =
        pure (.int (Int.ofNat x.appended_blocks))) ∧
    (∀ x : Etsi.DmrDataHeader.DataHeaderShortStatusPrecoded,
      instanceOf (n + 1) Ksy.Etsi.DmrDataHeader.DataHeaderShortStatusPrecoded x.toPy root "appended_blocks" =
        pure (.int (Int.ofNat x.appended_blocks))) ∧
    (∀ x : Etsi.DmrDataHeader.DataHeaderShortDefined,
      instanceOf (n + 1) Ksy.Etsi.DmrDataHeader.DataHeaderShortDefined x.toPy root "appended_blocks" =
        pure (.int (Int.ofNat x.appended_blocks))) ∧
    (∀ x : Motorola.TextMessageProtocol.TextMessageHeaderSequenceAndEncoding,
      instanceOf (n + 2) Ksy.Motorola.TextMessageProtocol.TextMessageHeaderSequenceAndEncoding x.toPy root "sequence_number" =
        always_ ((fun k => .int (Int.ofNat k)) <$> x.sequence_number)) ∧
    (∀ x : Motorola.TextMessageProtocol.TmsAcknowledgementHeaderSequenceNumber,
      instanceOf (n + 2) Ksy.Motorola.TextMessageProtocol.TmsAcknowledgementHeaderSequenceNumber x.toPy root "sequence_number" =
        always_ ((fun k => .int (Int.ofNat k)) <$> x.sequence_number)) :=
  ⟨fun x => Ksy.Hytera.RadioId_radio_id n x root, fun x => Ksy.Hytera.RadioIp_radio_id n x root,
    fun x => Ksy.Hytera.RadioIp_radio_ip n x root, fun x => Ksy.Hytera.Gpsdata_gps_available n x root,
    fun x => Ksy.Hytera.IpSiteConnectProtocol_source_radio_id n x root,
    fun x => Ksy.Hytera.IpSiteConnectProtocol_destination_radio_id n x root,
    fun x => Ksy.Hytera.IpSiteConnectProtocol_color_code n x root,
    fun x => Ksy.Hytera.IpSiteConnectProtocol_is_wakeup n x root,
    fun x => Ksy.Etsi.DataHeaderShortRaw_appended_blocks n x root,
    fun x => Ksy.Etsi.DataHeaderShortStatusPrecoded_appended_blocks n x root,
    fun x => Ksy.Etsi.DataHeaderShortDefined_appended_blocks n x root,
    fun x => Ksy.Motorola.TextMessageHeader_sequence_number n x root,
    fun x => Ksy.Motorola.TmsAcknowledgement_sequence_number n x root⟩

/-- C47. The properties that read the stream give, on first access, what the schema says about the instance of that name. -/
theorem C47_parsed (n : Nat) (root : Frame) :
    (∀ x : Hytera.LocationProtocol, instanceOf (n + 1) Ksy.Hytera.LocationProtocol x.toPy root "opcode" =
      EnumVal.toPy "LpGeneralTypes" <$> Hytera.LocationProtocol.computeOpcode) ∧
    (∀ x : Hytera.TelemetryProtocol, instanceOf (n + 1) Ksy.Hytera.TelemetryProtocol x.toPy root "specific_service" =
      EnumVal.toPy "ServiceSpecificTypes" <$> Hytera.TelemetryProtocol.computeSpecificService) ∧
    (∀ x : Hytera.RealTimeTransportProtocol, instanceOf (n + 2) Ksy.Hytera.RealTimeTransportProtocol x.toPy root "len_padding" =
      (fun k => .int (Int.ofNat k)) <$> Hytera.RealTimeTransportProtocol.lenPadding x.fixed_header) ∧
    (∀ (x : Etsi.DmrDataHeader) (raw : Option Bytes) (io : Stream),
      (instanceOf (n + 2) Ksy.Etsi.DmrDataHeader x.toPy root "data" io).1 =
        (fun d => view d.toPy) <$> (Etsi.DmrDataHeader.accessData ⟨x, none, raw, io⟩).1) :=
  ⟨fun x => Ksy.Hytera.LocationProtocol_opcode n x root, fun x => Ksy.Hytera.TelemetryProtocol_specific n x root,
    fun x => Ksy.Hytera.RealTimeTransportProtocol_padding n x root, fun x raw io => Ksy.Etsi.DmrDataHeader_data n x raw io root⟩

/-- Beside C47: the classes are there. -/
example : fileClasses.length = 28 ∧ innerClasses.length = 128 := ⟨rfl, rfl⟩

/-- Beside C47: an address, decoded by the schema. -/
example (sc : Scope) : fromBytes (parse 6 sc Ksy.Hytera.RadioIp) [10, 0, 1, 44] =
    .ok (.struct "Hytera.RadioIp" [("subnet", .int 10), ("radio_id_1", .int 0), ("radio_id_2", .int 1), ("radio_id_3", .int 44)]) := by
  rw [C47_from_bytes _ (List.mem_of_getElem? (i := 0) rfl) 6 (Nat.le_refl _)]
  rfl

/-- Beside C47: bits, an enumeration and a `switch`: a CSBK preamble, decoded by the schema. -/
example (sc : Scope) : fromBytes (parse 6 sc Ksy.Etsi.DmrCsbk) [0xBD, 0, 0xC0, 5, 0, 0, 1, 0, 0, 2, 0xAB, 0xCD] =
    .ok (.struct "Etsi.DmrCsbk" [("last_block", .bool true), ("protect_flag", .bool false), ("csbk_opcode", .enum "CsbkoTypes" 61),
      ("feature_set_id", .int 0), ("csbk_data", .struct "Etsi.DmrCsbk.PreambleData" [("preamble_data_or_csbk", .enum "CsbkDataOrCsbk" 1),
        ("group_or_individual", .enum "CsbkGroupOrIndividual" 1), ("preamble_reserved", .int 0),
        ("preamble_csbk_blocks_to_follow", .int 5), ("target_address", .int 1), ("source_address", .int 2)])]) := by
  have h : fromBytes Etsi.DmrCsbk.read [0xBD, 0, 0xC0, 5, 0, 0, 1, 0, 0, 2, 0xAB, 0xCD] =
      .ok ⟨true, false, .known .preamble, 0, some (.preambleData ⟨.known .data_content_follows_preambles,
        .known .target_address_is_a_group, 0, 5, 1, 2⟩)⟩ := by decide +kernel
  rw [C47_from_bytes _ (List.mem_of_getElem? (i := 18) rfl) 6 (Nat.le_refl _)]
  have e (r : Rd Etsi.DmrCsbk) (b : Bytes) : fromBytes (Etsi.DmrCsbk.toPy <$> r) b = Etsi.DmrCsbk.toPy <$> fromBytes r b := by
    unfold fromBytes
    show (Rd.bind r _ _).1 = _
    unfold Rd.bind
    rcases r (Stream.new b) with ⟨_ | _, _⟩ <;> rfl
  dsimp only
  rw [e, h]
  rfl

/-- Beside C47: both refuse a truncated address. -/
example (sc : Scope) : fromBytes (parse 6 sc Ksy.Hytera.RadioIp) [10, 0, 1] = .error .eof := by
  rw [C47_from_bytes _ (List.mem_of_getElem? (i := 0) rfl) 6 (Nat.le_refl _)]
  rfl

end Dmr
