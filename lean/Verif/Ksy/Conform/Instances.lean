import Verif.Ksy.Conform.RadioIp
import Verif.Ksy.Conform.RadioId
import Verif.Ksy.Conform.Gpsdata
import Verif.Ksy.Conform.LocationProtocol
import Verif.Ksy.Conform.TelemetryProtocol
import Verif.Ksy.Conform.IpSiteConnectProtocol
import Verif.Ksy.Conform.RealTimeTransportProtocol
import Verif.Ksy.Conform.DmrDataHeader
import Verif.Ksy.Conform.TextMessageProtocol
import Verif.Ksy.Conform.TextMessageProtocolMotorola
/-
`instances` of the schemas (hand-written): the properties of the Python objects that are computed on first access.
-/

set_option linter.unusedSimpArgs false

namespace Dmr.Ksy

/-- A decoded object as the schema sees it. -/
def frameOf (t : TypeDef) (x : PyVal) : Frame :=
  match view x with
  | .struct _ attrs => ⟨t, attrs⟩
  | _ => ⟨t, []⟩

/-- What the schema says about the instance `name` of the object `x`, whose type is `t`. -/
def instanceOf (n : Nat) (t : TypeDef) (x : PyVal) (root : Frame) (name : String) : Rd PyVal := inst n (frameOf t x) root name

/-- A value, or an exception, without touching the stream. -/
def always_ (e : Except PyErr α) : Rd α := fun s => (e, s)

theorem always_ok (a : α) (f : α → β) : always_ (Except.ok a >>= fun a => pure (f a)) = pure (f a) := rfl

theorem frameOf_object (t : TypeDef) (c : String) (ls : List (List (String × PyVal))) :
    frameOf t (.object c ls) = ⟨t, viewAttrs ls.flatten⟩ := by
  rw [frameOf, view_object]

theorem shl_cast (a k : Nat) : ((a <<< k : Nat) : Int) = (a : Int) * 2 ^ k := by
  rw [Nat.shiftLeft_eq]; push_cast; rfl

theorem shr_cast (a k : Nat) : ((a >>> k : Nat) : Int) = (a : Int) / 2 ^ k := by
  rw [Nat.shiftRight_eq_div_pow]; rfl

@[ksy] theorem toI_8 : Int.toNat 8 = 8 := rfl
@[ksy] theorem toI_15 : Int.toNat 15 = 15 := rfl
@[ksy] theorem toI_16 : Int.toNat 16 = 16 := rfl

theorem optAttr_none (n : String) : PyVal.optAttr n none = [] := rfl

/-- There is no such instance. -/
theorem inst_none (n : Nat) (fr root : Frame) (name : String) (h : fr.type.instances.lookup name = none) :
    inst (n + 1) fr root name = Rd.throw .attribute := by rw [inst, h]

theorem decimal_cast (n : Nat) : decimal (n : Int) = Nat.toDigits 10 n := by
  rw [decimal, if_neg (by omega)]; rfl

namespace Hytera

theorem RadioId_radio_id (n : Nat) (x : Dmr.Hytera.RadioId) (root : Frame) :
    instanceOf (n + 1) Hytera.RadioId x.toPy root "radio_id" = pure (.int (Int.ofNat x.radio_id)) := by
  rw [instanceOf, Dmr.Hytera.RadioId.toPy, frameOf_object, inst_value _ _ _ _ _ rfl]
  ksy_simp [Dmr.Hytera.RadioId.radio_id, shr_cast]

theorem RadioIp_radio_id (n : Nat) (x : Dmr.Hytera.RadioIp) (root : Frame) :
    instanceOf (n + 1) Hytera.RadioIp x.toPy root "radio_id" = pure (.int (Int.ofNat x.radio_id)) := by
  rw [instanceOf, Dmr.Hytera.RadioIp.toPy, frameOf_object, inst_value _ _ _ _ _ rfl]
  ksy_simp [Dmr.Hytera.RadioIp.radio_id, Int.natCast_add, shl_cast]

theorem RadioIp_radio_ip (n : Nat) (x : Dmr.Hytera.RadioIp) (root : Frame) :
    instanceOf (n + 1) Hytera.RadioIp x.toPy root "radio_ip" = pure (.str x.radio_ip) := by
  rw [instanceOf, Dmr.Hytera.RadioIp.toPy, frameOf_object, inst_value _ _ _ _ _ rfl]
  ksy_simp [Dmr.Hytera.RadioIp.radio_ip, decimal_cast]

theorem Gpsdata_gps_available (n : Nat) (x : Dmr.Hytera.Gpsdata) (root : Frame) :
    instanceOf (n + 1) Hytera.Gpsdata x.toPy root "gps_available" = always_ (.bool <$> x.gps_available) := by
  rw [instanceOf, Dmr.Hytera.Gpsdata.toPy, frameOf_object, inst_value _ _ _ _ _ rfl]
  ksy_simp [Dmr.Hytera.Gpsdata.gps_available]
  cases h : decodeAscii x.gps_status with
  | none => rfl
  | some s => ksy_simp []; rfl

theorem LocationProtocol_opcode (n : Nat) (x : Dmr.Hytera.LocationProtocol) (root : Frame) :
    instanceOf (n + 1) Hytera.LocationProtocol x.toPy root "opcode" =
      EnumVal.toPy "LpGeneralTypes" <$> Dmr.Hytera.LocationProtocol.computeOpcode := by
  rw [instanceOf, Dmr.Hytera.LocationProtocol.toPy, frameOf_object, inst_at _ _ _ _ _ _ rfl]
  ksy_simp [Dmr.Hytera.LocationProtocol.computeOpcode]

theorem TelemetryProtocol_specific (n : Nat) (x : Dmr.Hytera.TelemetryProtocol) (root : Frame) :
    instanceOf (n + 1) Hytera.TelemetryProtocol x.toPy root "specific_service" =
      EnumVal.toPy "ServiceSpecificTypes" <$> Dmr.Hytera.TelemetryProtocol.computeSpecificService := by
  rw [instanceOf, Dmr.Hytera.TelemetryProtocol.toPy, frameOf_object]
  ksy_simp []

theorem TextMessageProtocol_sum_len (n : Nat) (x : Dmr.Hytera.TextMessageProtocol) (root : Frame) :
    instanceOf (n + 2) Hytera.TextMessageProtocol x.toPy root "option_sum_len" =
      (fun k => .int (Int.ofNat k)) <$> Dmr.Hytera.TextMessageProtocol.optionSumLen x.option_flag x.option_field_len := by
  have h0 : PyEnum.value Dmr.Hytera.TextMessageProtocol.OptionFlags.option_len_and_field_disabled = 0 := rfl
  have h1 : PyEnum.value Dmr.Hytera.TextMessageProtocol.OptionFlags.option_len_and_field_enabled = 1 := rfl
  have s0 : same (.int ((0 : Nat) : Int)) (.int 1) = false := rfl
  have s0' : same (.int 0) (.int 1) = false := rfl
  have s1 : same (.int ((1 : Nat) : Int)) (.int 1) = true := rfl
  have e0 : Dmr.Hytera.TextMessageProtocol.optionFlagIsOne (.known .option_len_and_field_disabled) = pure false := rfl
  have e1 : Dmr.Hytera.TextMessageProtocol.optionFlagIsOne (.known .option_len_and_field_enabled) = pure true := rfl
  have e2 (v) : Dmr.Hytera.TextMessageProtocol.optionFlagIsOne (.raw v) = Rd.throw .attribute := rfl
  have c0 : ((0 : Nat) : Int) = 0 := rfl
  have c2 (k : Nat) : ((k + 2 : Nat) : Int) = k + 2 := rfl
  have no (attrs) : inst (n + 1) ⟨Hytera.TextMessageProtocol, attrs⟩ root "option_field_len" = Rd.throw .attribute :=
    inst_none _ _ _ _ rfl
  rw [instanceOf, Dmr.Hytera.TextMessageProtocol.toPy, frameOf_object]
  rcases hf : x.option_flag with e | v
  · cases e
    · ksy_simp [toPy_known, h0, s0, e0, s0', c0, Dmr.Hytera.TextMessageProtocol.optionSumLen]
    · cases hl : x.option_field_len <;>
        ksy_simp [toPy_known, h1, s1, e1, c2, Dmr.Hytera.TextMessageProtocol.optionSumLen, optAttr_none, no, rd_throw_bind, List.lookup_nil]
  · ksy_simp [toPy_raw, e2, rd_throw_bind, Dmr.Hytera.TextMessageProtocol.optionSumLen]

theorem IpSiteConnectProtocol_source_radio_id (n : Nat) (x : Dmr.Hytera.IpSiteConnectProtocol) (root : Frame) :
    instanceOf (n + 1) Hytera.IpSiteConnectProtocol x.toPy root "source_radio_id" =
      pure (.int (Int.ofNat x.source_radio_id)) := by
  rw [instanceOf, Dmr.Hytera.IpSiteConnectProtocol.toPy, frameOf_object, inst_value _ _ _ _ _ rfl]
  ksy_simp [Dmr.Hytera.IpSiteConnectProtocol.source_radio_id, shr_cast]

theorem IpSiteConnectProtocol_destination_radio_id (n : Nat) (x : Dmr.Hytera.IpSiteConnectProtocol) (root : Frame) :
    instanceOf (n + 1) Hytera.IpSiteConnectProtocol x.toPy root "destination_radio_id" =
      pure (.int (Int.ofNat x.destination_radio_id)) := by
  rw [instanceOf, Dmr.Hytera.IpSiteConnectProtocol.toPy, frameOf_object, inst_value _ _ _ _ _ rfl]
  ksy_simp [Dmr.Hytera.IpSiteConnectProtocol.destination_radio_id, shr_cast]

theorem IpSiteConnectProtocol_color_code (n : Nat) (x : Dmr.Hytera.IpSiteConnectProtocol) (root : Frame) :
    instanceOf (n + 1) Hytera.IpSiteConnectProtocol x.toPy root "color_code" = pure (.int (Int.ofNat x.color_code)) := by
  rw [instanceOf, Dmr.Hytera.IpSiteConnectProtocol.toPy, frameOf_object, inst_value _ _ _ _ _ rfl]
  ksy_simp [Dmr.Hytera.IpSiteConnectProtocol.color_code]

theorem IpSiteConnectProtocol_is_wakeup (n : Nat) (x : Dmr.Hytera.IpSiteConnectProtocol) (root : Frame) :
    instanceOf (n + 1) Hytera.IpSiteConnectProtocol x.toPy root "is_wakeup" = pure (.bool x.is_wakeup) := by
  rw [instanceOf, Dmr.Hytera.IpSiteConnectProtocol.toPy, frameOf_object, inst_value _ _ _ _ _ rfl]
  ksy_simp [Dmr.Hytera.IpSiteConnectProtocol.is_wakeup]

theorem RealTimeTransportProtocol_padding (n : Nat) (x : Dmr.Hytera.RealTimeTransportProtocol) (root : Frame) :
    instanceOf (n + 2) Hytera.RealTimeTransportProtocol x.toPy root "len_padding" =
      (fun k => .int (Int.ofNat k)) <$> Dmr.Hytera.RealTimeTransportProtocol.lenPadding x.fixed_header := by
  rw [instanceOf, Dmr.Hytera.RealTimeTransportProtocol.toPy, frameOf_object]
  refine RealTimeTransportProtocol_len_padding n _ root x.fixed_header ?_ ?_ <;> ksy_simp []

theorem RealTimeTransportProtocol_padding_if_exists (n : Nat) (x : Dmr.Hytera.RealTimeTransportProtocol) (root : Frame) :
    instanceOf (n + 2) Hytera.RealTimeTransportProtocol x.toPy root "len_padding_if_exists" =
      (fun o => match o with | some k => .int (Int.ofNat k) | none => .none) <$>
        Dmr.Hytera.RealTimeTransportProtocol.lenPaddingIfExists x.fixed_header := by
  have e (k : Nat) : Int.toNat ((k : Int) - 1) = k - 1 := by omega
  rw [instanceOf, Dmr.Hytera.RealTimeTransportProtocol.toPy, frameOf_object, inst_at_if _ _ _ _ _ _ _ rfl]
  by_cases h : x.fixed_header.padding = true
  · ksy_simp [h, e, Dmr.Hytera.RealTimeTransportProtocol.lenPaddingIfExists]
  · ksy_simp [h, Dmr.Hytera.RealTimeTransportProtocol.lenPaddingIfExists]

end Hytera

namespace Etsi

theorem DataHeaderShortRaw_appended_blocks (n : Nat) (x : Dmr.Etsi.DmrDataHeader.DataHeaderShortRaw) (root : Frame) :
    instanceOf (n + 1) Etsi.DmrDataHeader.DataHeaderShortRaw x.toPy root "appended_blocks" =
      pure (.int (Int.ofNat x.appended_blocks)) := by
  rw [instanceOf, Dmr.Etsi.DmrDataHeader.DataHeaderShortRaw.toPy, frameOf_object, inst_value _ _ _ _ _ rfl]
  ksy_simp [Dmr.Etsi.DmrDataHeader.DataHeaderShortRaw.appended_blocks, Int.natCast_add, shl_cast]

theorem DataHeaderShortStatusPrecoded_appended_blocks (n : Nat) (x : Dmr.Etsi.DmrDataHeader.DataHeaderShortStatusPrecoded)
    (root : Frame) :
    instanceOf (n + 1) Etsi.DmrDataHeader.DataHeaderShortStatusPrecoded x.toPy root "appended_blocks" =
      pure (.int (Int.ofNat x.appended_blocks)) := by
  rw [instanceOf, Dmr.Etsi.DmrDataHeader.DataHeaderShortStatusPrecoded.toPy, frameOf_object, inst_value _ _ _ _ _ rfl]
  ksy_simp [Dmr.Etsi.DmrDataHeader.DataHeaderShortStatusPrecoded.appended_blocks, Int.natCast_add, shl_cast]

theorem DataHeaderShortDefined_appended_blocks (n : Nat) (x : Dmr.Etsi.DmrDataHeader.DataHeaderShortDefined) (root : Frame) :
    instanceOf (n + 1) Etsi.DmrDataHeader.DataHeaderShortDefined x.toPy root "appended_blocks" =
      pure (.int (Int.ofNat x.appended_blocks)) := by
  rw [instanceOf, Dmr.Etsi.DmrDataHeader.DataHeaderShortDefined.toPy, frameOf_object, inst_value _ _ _ _ _ rfl]
  ksy_simp [Dmr.Etsi.DmrDataHeader.DataHeaderShortDefined.appended_blocks, Int.natCast_add, shl_cast]

/-- `size` together with a `switch`. -/
theorem readTy_sized (ev : Expr → Rd PyVal) (sub : TypeDef → Rd PyVal) (e on cases default) :
    readTy ev sub (.sized e (.switch on cases default)) = (do
      let v ← ev e
      let n ← asInt v
      let raw ← readBytesInt n
      fun s => ((readTy ev sub (.switch on cases default) (Stream.new raw)).1, s)) := rfl

/-- The first access to `data` of a data header, and the schema. -/
theorem DmrDataHeader_data (n : Nat) (x : Dmr.Etsi.DmrDataHeader) (raw : Option Bytes) (io : Stream) (root : Frame) :
    (instanceOf (n + 2) Etsi.DmrDataHeader x.toPy root "data" io).1 =
      (fun d => view (Dmr.Etsi.DmrDataHeader.DataUnion.toPy d)) <$> (Dmr.Etsi.DmrDataHeader.accessData ⟨x, none, raw, io⟩).1 := by
  rw [instanceOf, Dmr.Etsi.DmrDataHeader.toPy, frameOf_object, inst_at _ _ _ _ _ _ rfl, readTy_sized]
  have e12 : readBytesInt 12 = readBytes 12 := readBytesInt_ofNat 12
  generalize hb : readTy _ _ (.switch _ _ _) = body
  have hbody : body = (fun d => some (view (Dmr.Etsi.DmrDataHeader.DataUnion.toPy d))) <$>
      Dmr.Etsi.DmrDataHeader.readDataBody x.data_packet_format := by
    rw [← hb]
    ksy_simp []
    rcases x.data_packet_format with e | v
    · cases e <;> ksy_simp [Dmr.Etsi.DmrDataHeader.readDataBody, Dmr.Etsi.DmrDataHeader.DataUnion.toPy, EnumVal.known.injEq,
        reduceCtorEq]
    · ksy_simp [Dmr.Etsi.DmrDataHeader.readDataBody, Dmr.Etsi.DmrDataHeader.DataUnion.toPy, EnumVal.known.injEq,
        reduceCtorEq]
  clear hb
  subst hbody
  ksy_simp [e12]
  unfold Dmr.Etsi.DmrDataHeader.accessData
  dsimp only
  generalize Dmr.Etsi.DmrDataHeader.readDataBody x.data_packet_format = body
  simp only [always, bind_assoc, pure_bind]
  unfold fromBytes
  rcases h : readBytes 12 { io with pos := 0 } with ⟨e | b, s⟩
  · simp [bind, Rd.bind, posIo, seekIo, pure, Rd.pure, h, Except.bind]
  · rcases h2 : body (Stream.new b) with ⟨e | d, s2⟩ <;>
      simp [bind, Rd.bind, posIo, seekIo, pure, Rd.pure, h, h2, Except.bind, Except.pure]

end Etsi

namespace Motorola

theorem TextMessageHeader_sequence_number (n : Nat)
    (x : Dmr.Motorola.TextMessageProtocol.TextMessageHeaderSequenceAndEncoding) (root : Frame) :
    instanceOf (n + 2) Motorola.TextMessageProtocol.TextMessageHeaderSequenceAndEncoding x.toPy root "sequence_number" =
      always_ ((fun k => .int (Int.ofNat k)) <$> x.sequence_number) := by
  have no (attrs) : inst (n + 1) ⟨Motorola.TextMessageProtocol.TextMessageHeaderSequenceAndEncoding, attrs⟩ root "sequence_number_msb_bits" = Rd.throw .attribute :=
    inst_none _ _ _ _ rfl
  rw [instanceOf, Dmr.Motorola.TextMessageProtocol.TextMessageHeaderSequenceAndEncoding.toPy, frameOf_object,
    inst_value _ _ _ _ _ rfl]
  cases h : x.sequence_number_msb_bits <;>
    ksy_simp [h, no, rd_throw_bind, Dmr.Motorola.TextMessageProtocol.TextMessageHeaderSequenceAndEncoding.sequence_number,
      Int.natCast_add, shl_cast, optAttr_none, List.lookup_nil, always_ok]
  rfl

theorem TmsAcknowledgement_sequence_number (n : Nat)
    (x : Dmr.Motorola.TextMessageProtocol.TmsAcknowledgementHeaderSequenceNumber) (root : Frame) :
    instanceOf (n + 2) Motorola.TextMessageProtocol.TmsAcknowledgementHeaderSequenceNumber x.toPy root "sequence_number" =
      always_ ((fun k => .int (Int.ofNat k)) <$> x.sequence_number) := by
  have no (attrs) : inst (n + 1) ⟨Motorola.TextMessageProtocol.TmsAcknowledgementHeaderSequenceNumber, attrs⟩ root "header_msb_bits" = Rd.throw .attribute :=
    inst_none _ _ _ _ rfl
  rw [instanceOf, Dmr.Motorola.TextMessageProtocol.TmsAcknowledgementHeaderSequenceNumber.toPy, frameOf_object,
    inst_value _ _ _ _ _ rfl]
  cases h : x.header_msb_bits <;>
    ksy_simp [h, no, rd_throw_bind, Dmr.Motorola.TextMessageProtocol.TmsAcknowledgementHeaderSequenceNumber.sequence_number,
      Int.natCast_add, shl_cast, optAttr_none, List.lookup_nil, always_ok]
  rfl

end Motorola

end Dmr.Ksy
