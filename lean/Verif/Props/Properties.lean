import Verif.Model.Properties
import Verif.Props.Lazy
/-
C55: lazily computed properties. Whatever objects share a stream, and in whatever order and however often their properties are
accessed, each access gives what the property is specified to give for that object and the bytes of the stream (a value or an
exception, the same every time); the attributes of all objects stay as they are, and accesses that do not raise leave the stream
where it was.
-/

set_option autoImplicit false

namespace Dmr

open Hytera Etsi Homebrew

/-! ### What each property is -/

/-- The specification of the properties of a class: what `getattr(x, p)` gives for an object with attributes `x` on a stream over
`buf`. -/
structure LazySpec where
  cls : LazyClass
  value : cls.Attrs → Bytes → String → Except PyErr PyVal

/-- Dotted decimal and the last three bytes. -/
def radioIpValue (x : RadioIp) (_ : Bytes) (p : String) : Except PyErr PyVal :=
  if p = "radio_id" then .ok (.int (Int.ofNat (x.radio_id_1 * 65536 + x.radio_id_2 * 256 + x.radio_id_3)))
  else if p = "radio_ip" then
    .ok (.str (['.'].intercalate ([x.subnet, x.radio_id_1, x.radio_id_2, x.radio_id_3].map (Nat.toDigits 10))))
  else .error .attribute

/-- Three of four bytes. -/
def radioIdValue (x : RadioId) (_ : Bytes) (p : String) : Except PyErr PyVal :=
  if p = "radio_id" then .ok (.int (Int.ofNat (x.radio_id_raw / 256))) else .error .attribute

/-- The letter A; a byte that is no ASCII character raises. -/
def gpsdataValue (x : Gpsdata) (_ : Bytes) (p : String) : Except PyErr PyVal :=
  if p = "gps_available" then
    if ∀ c ∈ x.gps_status, c.toNat < 128 then .ok (.bool (decide (x.gps_status = [65]))) else .error .unicode
  else .error .attribute

/-- See C20. -/
def ipscValue (x : IpSiteConnectProtocol) (_ : Bytes) (p : String) : Except PyErr PyVal :=
  if p = "source_radio_id" then .ok (.int (Int.ofNat (x.source_radio_id_raw / 256)))
  else if p = "destination_radio_id" then .ok (.int (Int.ofNat (x.destination_radio_id_raw / 256)))
  else if p = "color_code" then .ok (.int (Int.ofNat (x.color_code_raw % 16)))
  else if p = "is_wakeup" then
    .ok (.bool (decide (x.call_type = .known .wakeup_call_2 ∨ x.call_type = .known .wakeup_call_c ∨
      x.slot_type = .known .slot_type_wakeup_request)))
  else .error .attribute

/-- The last byte of the packet, if the padding flag is set. -/
def rtpValue (x : RealTimeTransportProtocol) (buf : Bytes) (p : String) : Except PyErr PyVal :=
  let last : Except PyErr PyVal := match buf.getLast? with | some n => .ok (.int n.toNat) | none => .error .value
  if p = "len_padding_if_exists" then if x.fixed_header.padding then last else .ok .none
  else if p = "len_padding" then if x.fixed_header.padding then last else .ok (.int 0)
  else .error .attribute

/-- The first two bytes of the stream, whatever they are (C09). -/
def telemetryValue (_ : TelemetryProtocol) (buf : Bytes) (p : String) : Except PyErr PyVal :=
  if p = "specific_service" then
    match buf with
    | a :: b :: _ => .ok (EnumVal.toPy "ServiceSpecificTypes"
        (resolveEnum TelemetryProtocol.ServiceSpecificTypes (a.toNat * 256 + b.toNat)))
    | _ => .error .eof
  else .error .attribute

/-- Two bytes more than the option field. -/
def textMessageValue (x : Hytera.TextMessageProtocol) (_ : Bytes) (p : String) : Except PyErr PyVal :=
  if p = "option_sum_len" then
    match x.option_flag, x.option_field_len with
    | .raw _, _ => .error .attribute
    | .known .option_len_and_field_disabled, _ => .ok (.int 0)
    | .known .option_len_and_field_enabled, some n => .ok (.int (n + 2))
    | .known .option_len_and_field_enabled, none => .error .attribute
  else .error .attribute

/-- The first byte of the stream, whatever it is (C08). -/
def locationValue (_ : LocationProtocol) (buf : Bytes) (p : String) : Except PyErr PyVal :=
  if p = "opcode" then
    match buf with
    | a :: _ => .ok (EnumVal.toPy "LpGeneralTypes" (serviceFamily a.toNat))
    | [] => .error .eof
  else .error .attribute

/-- See C39. -/
def sequenceNumberValue (x : Motorola.TextMessageProtocol.TextMessageHeaderSequenceAndEncoding) (_ : Bytes) (p : String) :
    Except PyErr PyVal :=
  if p = "sequence_number" then
    match x.sequence_number_msb_bits with
    | some m => .ok (.int (Int.ofNat (m * 16 + x.sequence_number_lsb_bits)))
    | none => .error .attribute
  else .error .attribute

/-- See C39. -/
def ackSequenceNumberValue (x : Motorola.TextMessageProtocol.TmsAcknowledgementHeaderSequenceNumber) (_ : Bytes) (p : String) :
    Except PyErr PyVal :=
  if p = "sequence_number" then
    match x.header_msb_bits with
    | some m => .ok (.int (Int.ofNat (m * 16 + x.header_lsb_bits)))
    | none => .error .attribute
  else .error .attribute

/-- The two flags in front of the PDU type. -/
def pduTypeValue (x : Motorola.TextMessageProtocol) (_ : Bytes) (p : String) : Except PyErr PyVal :=
  if p = "custom_pdu_type" then
    .ok (.int (Int.ofNat ((if x.message_header.acknowledgement_required then 32 else 0) +
      (if x.message_header.control_user_bit then 16 else 0) + x.message_header.pdu_type)))
  else .error .attribute

/-- The fifth byte of the stream as a letter. -/
def fifthLetterValue (buf : Bytes) (p : String) : Except PyErr PyVal :=
  if p = "fifth_letter" then
    match buf[4]? with
    | some c => if c.toNat < 128 then .ok (.str [Char.ofNat c.toNat]) else .error .unicode
    | none => .error .eof
  else .error .attribute

/-- A number of which the upper two bits were transmitted apart from the lower four. -/
def appendedBlocksValue (msb lsb : Nat) (p : String) : Except PyErr PyVal :=
  if p = "appended_blocks" then .ok (.int (Int.ofNat (msb * 16 + lsb))) else .error .attribute

/-- The first twelve bytes of the stream as a header of the format found when the object was decoded (C24). -/
def dataHeaderValue (x : DmrDataHeader) (buf : Bytes) (p : String) : Except PyErr PyVal :=
  if p = "data" then
    if 12 ≤ buf.length then
      (fromBytes (DmrDataHeader.readDataBody x.data_packet_format) (buf.take 12)).map DmrDataHeader.DataUnion.toPy
    else .error .eof
  else .error .attribute

/-- Every class of the library that has properties. -/
def lazySpecs : List LazySpec :=
  [⟨⟨"RadioIp", _, RadioIp.read, RadioIp.toPy, RadioIp.getters⟩, radioIpValue⟩,
   ⟨⟨"RadioId", _, RadioId.read, RadioId.toPy, RadioId.getters⟩, radioIdValue⟩,
   ⟨⟨"Gpsdata", _, Gpsdata.read, Gpsdata.toPy, Gpsdata.getters⟩, gpsdataValue⟩,
   ⟨⟨"IpSiteConnectProtocol", _, IpSiteConnectProtocol.read, IpSiteConnectProtocol.toPy, IpSiteConnectProtocol.getters⟩, ipscValue⟩,
   ⟨⟨"RealTimeTransportProtocol", _, RealTimeTransportProtocol.read, RealTimeTransportProtocol.toPy, RealTimeTransportProtocol.getters⟩, rtpValue⟩,
   ⟨⟨"TelemetryProtocol", _, TelemetryProtocol.read, TelemetryProtocol.toPy, TelemetryProtocol.getters⟩, telemetryValue⟩,
   ⟨⟨"TextMessageProtocol", _, Hytera.TextMessageProtocol.read, Hytera.TextMessageProtocol.toPy, Hytera.TextMessageProtocol.getters⟩, textMessageValue⟩,
   ⟨⟨"LocationProtocol", _, LocationProtocol.read, LocationProtocol.toPy, LocationProtocol.getters⟩, locationValue⟩,
   ⟨⟨"TextMessageHeaderSequenceAndEncoding", _, Motorola.TextMessageProtocol.TextMessageHeaderSequenceAndEncoding.read, Motorola.TextMessageProtocol.TextMessageHeaderSequenceAndEncoding.toPy,
      Motorola.TextMessageProtocol.TextMessageHeaderSequenceAndEncoding.getters⟩, sequenceNumberValue⟩,
   ⟨⟨"TmsAcknowledgementHeaderSequenceNumber", _, Motorola.TextMessageProtocol.TmsAcknowledgementHeaderSequenceNumber.read, Motorola.TextMessageProtocol.TmsAcknowledgementHeaderSequenceNumber.toPy,
      Motorola.TextMessageProtocol.TmsAcknowledgementHeaderSequenceNumber.getters⟩, ackSequenceNumberValue⟩,
   ⟨⟨"TextMessageProtocol", _, Motorola.TextMessageProtocol.read, Motorola.TextMessageProtocol.toPy, Motorola.TextMessageProtocol.getters⟩, pduTypeValue⟩,
   ⟨⟨"Homebrew2015", _, Homebrew2015.read, Homebrew2015.toPy, Homebrew2015.getters⟩, fun _ => fifthLetterValue⟩,
   ⟨⟨"Mmdvm2020", _, Mmdvm2020.read, Mmdvm2020.toPy, Mmdvm2020.getters⟩, fun _ => fifthLetterValue⟩,
   ⟨⟨"DataHeaderShortRaw", _, DmrDataHeader.DataHeaderShortRaw.read, DmrDataHeader.DataHeaderShortRaw.toPy, DmrDataHeader.DataHeaderShortRaw.getters⟩,
      fun x _ => appendedBlocksValue x.appended_blocks_msb x.appended_blocks_lsb⟩,
   ⟨⟨"DataHeaderShortStatusPrecoded", _, DmrDataHeader.DataHeaderShortStatusPrecoded.read, DmrDataHeader.DataHeaderShortStatusPrecoded.toPy,
      DmrDataHeader.DataHeaderShortStatusPrecoded.getters⟩,
      fun x _ => appendedBlocksValue x.appended_blocks_msb x.appended_blocks_lsb⟩,
   ⟨⟨"DataHeaderShortDefined", _, DmrDataHeader.DataHeaderShortDefined.read, DmrDataHeader.DataHeaderShortDefined.toPy, DmrDataHeader.DataHeaderShortDefined.getters⟩,
      fun x _ => appendedBlocksValue x.appended_blocks_msb x.appended_blocks_lsb⟩,
   ⟨⟨"DmrDataHeader", _, DmrDataHeader.read, DmrDataHeader.toPy, DmrDataHeader.getters⟩, dataHeaderValue⟩]

/-- An object of a class with properties. -/
structure Subject where
  spec : LazySpec
  obj : PyObj spec.cls.Attrs

/-- The object itself, without the specification. -/
def Subject.toInstance (x : Subject) : Instance := ⟨x.spec.cls, x.obj⟩

/-- What `_read` assigned, without what has been cached. -/
def Subject.attributes (x : Subject) : (s : LazySpec) × s.cls.Attrs := ⟨x.spec, x.obj.attrs⟩

/-- What the property `p` of `x` is specified to be. -/
def Subject.value (x : Subject) (buf : Bytes) (p : String) : Except PyErr PyVal := x.spec.value x.obj.attrs buf p

/-- What has been cached is what the properties are specified to be. An object without caches is like that. -/
def Subject.Honest (x : Subject) (buf : Bytes) : Prop :=
  ∀ p v, x.obj.caches.lookup ("_m_" ++ p) = some v → x.value buf p = .ok v

/-- What access `(k, p)` is specified to give. -/
def expectedOutcome (objs : List Subject) (buf : Bytes) (a : Nat × String) : Except PyErr PyVal :=
  match objs[a.1]? with
  | some x => x.value buf a.2
  | none => .error .index

/-! ### Proofs -/

namespace Properties

variable {A : Type}

/-- `Subject.Honest` for a bare object. -/
def Honest (value : A → Bytes → String → Except PyErr PyVal) (o : PyObj A) (buf : Bytes) : Prop :=
  ∀ p v, o.caches.lookup ("_m_" ++ p) = some v → value o.attrs buf p = .ok v

/-- The stream is where it was; pending bits may have been dropped. -/
def Kept (io io' : Stream) : Prop := io' = io ∨ io' = { io with bits := 0, bitsLeft := 0 }

theorem Kept.trans {a b c : Stream} (h : Kept a b) (h' : Kept b c) : Kept a c := by
  rcases h with rfl | rfl <;> rcases h' with rfl | rfl
  · exact .inl rfl
  · exact .inr rfl
  · exact .inr rfl
  · exact .inr rfl

/-- What is proved of every property. -/
def Stable (value : A → Bytes → String → Except PyErr PyVal) (p : String) (g : Getter A) : Prop :=
  ∀ o io, Honest value o io.buf →
    (g o io).1 = value o.attrs io.buf p ∧ (g o io).2.1.attrs = o.attrs ∧ Honest value (g o io).2.1 io.buf ∧
    (g o io).2.2.buf = io.buf ∧ ((g o io).1.toBool = true → Kept io (g o io).2.2)

/-- What is proved of what is inside every property. -/
def Sound (value : A → Bytes → String → Except PyErr PyVal) (p : String) (g : GetterBody A) : Prop :=
  ∀ o io, Honest value o io.buf →
    ((g o io).1.map fun v => v.getD .none) = value o.attrs io.buf p ∧ (g o io).2.1.attrs = o.attrs ∧
    Honest value (g o io).2.1 io.buf ∧ (g o io).2.2.buf = io.buf ∧ ((g o io).1.toBool = true → Kept io (g o io).2.2)

theorem lookup_append_one (l : List (String × PyVal)) (n m : String) (v w : PyVal) (h : (l ++ [(n, v)]).lookup m = some w) :
    l.lookup m = some w ∨ m = n ∧ w = v := by
  induction l with
  | nil =>
    simp only [List.nil_append, List.lookup_cons, List.lookup_nil] at h
    split at h
    · rename_i hb
      cases h
      exact .inr ⟨by simpa using hb, rfl⟩
    · cases h
  | cons a l ih =>
    obtain ⟨k, u⟩ := a
    simp only [List.cons_append, List.lookup_cons] at h ⊢
    split at h
    · exact .inl h
    · exact ih h

theorem cache_inj {p q : String} (h : "_m_" ++ p = "_m_" ++ q) : p = q := by
  have := congrArg String.toList h
  simp only [String.toList_append] at this
  exact String.toList_inj.1 (List.append_cancel_left this)

theorem Honest.extend {value : A → Bytes → String → Except PyErr PyVal} {o : PyObj A} {buf : Bytes} {p : String} {v : PyVal}
    (h : Honest value o buf) (hv : value o.attrs buf p = .ok v) :
    Honest value { o with caches := o.caches ++ [("_m_" ++ p, v)] } buf := by
  intro q w hw
  rcases lookup_append_one _ _ _ _ _ hw with hw | ⟨hq, rfl⟩
  · exact h q w hw
  · rw [cache_inj hq]; exact hv

theorem Stable.of_sound {value : A → Bytes → String → Except PyErr PyVal} {p : String} {body : GetterBody A}
    (h : Sound value p body) : Stable value p (property p body) := by
  intro o io ho
  obtain ⟨h1, h2, h3, h4, h5⟩ := h o io ho
  unfold property
  cases hc : o.caches.lookup ("_m_" ++ p) with
  | some v => exact ⟨(ho p v hc).symm, rfl, ho, rfl, fun _ => .inl rfl⟩
  | none =>
    dsimp only
    rcases hb : body o io with ⟨e | _ | v, o', io'⟩
    · rw [hb] at h1 h2 h3 h4; exact ⟨h1, h2, h3, h4, fun h => by cases h⟩
    · rw [hb] at h1 h2 h3 h4 h5; exact ⟨h1, h2, h3, h4, fun _ => h5 rfl⟩
    · rw [hb] at h1 h2 h3 h4 h5
      exact ⟨h1, h2, Honest.extend h3 (by rw [show o'.attrs = o.attrs from h2]; exact h1.symm), h4, fun _ => h5 rfl⟩

theorem Sound.attrs {value : A → Bytes → String → Except PyErr PyVal} {p : String} {f : A → Except PyErr PyVal}
    (h : ∀ x buf, f x = value x buf p) : Sound value p (fromAttrs f) := by
  intro o io ho
  unfold fromAttrs
  rw [h o.attrs io.buf]
  cases hv : value o.attrs io.buf p with
  | error e => exact ⟨rfl, rfl, ho, rfl, fun h => by cases h⟩
  | ok v => exact ⟨rfl, rfl, ho, rfl, fun _ => .inl rfl⟩

theorem Sound.stream {value : A → Bytes → String → Except PyErr PyVal} {p : String} {r : A → Rd (Option PyVal)}
    (h : ∀ x io, ((r x io).1.map fun v => v.getD .none) = value x io.buf p ∧ (r x io).2.buf = io.buf ∧
      ((r x io).1.toBool = true → Kept io (r x io).2)) : Sound value p (fromStream r) := by
  intro o io ho
  obtain ⟨h1, h2, h3⟩ := h o.attrs io
  exact ⟨h1, rfl, ho, h2, h3⟩

/-- Looking at bytes somewhere else. -/
theorem peek_eq {α β : Type} (q n : Nat) (f : Bytes → Except PyErr α) (g : α → β) (io : Stream) :
    ((do let pos ← posIo
         seekIo q
         let raw ← readBytes n
         let v ← (fun s => (f raw, s) : Rd α)
         seekIo pos
         return g v : Rd β) io) =
      if q + n ≤ io.buf.length ∨ n = 0 then
        match f ((io.buf.drop q).take n) with
        | .ok v => (.ok (g v), { io with bits := 0, bitsLeft := 0 })
        | .error e => (.error e, { io with pos := q + n, bits := 0, bitsLeft := 0 })
      else (.error .eof, { io with pos := q + (io.buf.length - q), bits := 0, bitsLeft := 0 }) := by
  simp only [Bind.bind, Rd.bind, posIo, seekIo, readBytes, alignToByte, readBytesNotAligned, Pure.pure, Rd.pure]
  have hl : ((io.buf.drop q).take n).length = min n (io.buf.length - q) := by simp
  by_cases h : q + n ≤ io.buf.length ∨ n = 0
  · rw [if_pos h, if_pos (by rw [hl]; omega)]
    dsimp only
    cases f ((io.buf.drop q).take n) with
    | ok v => rfl
    | error e => dsimp only; rw [hl, show min n (io.buf.length - q) = n by omega]
  · rw [if_neg h, if_neg (by rw [hl]; omega)]
    dsimp only
    rw [hl, show min n (io.buf.length - q) = io.buf.length - q by omega]

/-- A property that looks at bytes somewhere else. -/
theorem Sound.peek {α : Type} {value : A → Bytes → String → Except PyErr PyVal} {p : String} (q n : Nat) (hn : 0 < n)
    (f : Bytes → Except PyErr α) (g : α → PyVal) {r : A → Rd (Option PyVal)}
    (hr : ∀ x io, r x io = (do let pos ← posIo
                               seekIo q
                               let raw ← readBytes n
                               let v ← (fun s => (f raw, s) : Rd α)
                               seekIo pos
                               return some (g v) : Rd (Option PyVal)) io)
    (hv : ∀ x buf, (if q + n ≤ buf.length then (f ((buf.drop q).take n)).map g else .error .eof) = value x buf p) :
    Sound value p (fromStream r) := by
  refine Sound.stream fun x io => ?_
  rw [hr, peek_eq q n f (fun v => some (g v)) io, ← hv x io.buf]
  by_cases h : q + n ≤ io.buf.length
  · rw [if_pos (.inl h), if_pos h]
    cases f ((io.buf.drop q).take n) with
    | ok v => exact ⟨rfl, rfl, fun _ => .inr rfl⟩
    | error e => exact ⟨rfl, rfl, fun h => by cases h⟩
  · rw [if_neg (by omega), if_neg h]
    exact ⟨rfl, rfl, fun h => by cases h⟩

/-- All properties of a class are stable, and it has no others. -/
def ClassStable (s : LazySpec) : Prop :=
  (∀ p g, s.cls.getters.lookup p = some g → Stable s.value p g) ∧
  (∀ p x buf, s.cls.getters.lookup p = none → s.value x buf p = .error .attribute)

theorem classStable_one {nm : String} {rd : Rd A} {view : A → PyVal} {value : A → Bytes → String → Except PyErr PyVal} {p : String}
    {g : Getter A} (h : Stable value p g) (hn : ∀ q x buf, q ≠ p → value x buf q = .error .attribute) :
    ClassStable ⟨⟨nm, A, rd, view, [(p, g)]⟩, value⟩ := by
  constructor
  · intro q g' hq
    simp only [List.lookup_cons, List.lookup_nil] at hq
    split at hq
    · rename_i hb
      cases hq
      have : q = p := by simpa using hb
      rw [this]; exact h
    · cases hq
  · intro q x buf hq
    simp only [List.lookup_cons, List.lookup_nil] at hq
    split at hq
    · cases hq
    · rename_i hb
      exact hn q x buf (by simpa using hb)

theorem radioId_stable : ClassStable ⟨⟨"RadioId", _, RadioId.read, RadioId.toPy, RadioId.getters⟩, radioIdValue⟩ := by
  refine classStable_one (.of_sound (.attrs fun x buf => ?_)) fun q x buf hq => if_neg hq
  simp only [radioIdValue, if_pos, RadioId.radio_id]
  rw [Nat.shiftRight_eq_div_pow]

theorem sequence_stable : ClassStable ⟨⟨"TextMessageHeaderSequenceAndEncoding", _, Motorola.TextMessageProtocol.TextMessageHeaderSequenceAndEncoding.read,
    Motorola.TextMessageProtocol.TextMessageHeaderSequenceAndEncoding.toPy,
    Motorola.TextMessageProtocol.TextMessageHeaderSequenceAndEncoding.getters⟩, sequenceNumberValue⟩ := by
  refine classStable_one (.of_sound (.attrs fun x buf => ?_)) fun q x buf hq => if_neg hq
  simp only [sequenceNumberValue, if_pos, Motorola.TextMessageProtocol.TextMessageHeaderSequenceAndEncoding.sequence_number]
  cases x.sequence_number_msb_bits with
  | none => rfl
  | some m => simp only [Except.map, Nat.shiftLeft_eq]

theorem ackSequence_stable : ClassStable ⟨⟨"TmsAcknowledgementHeaderSequenceNumber", _, Motorola.TextMessageProtocol.TmsAcknowledgementHeaderSequenceNumber.read,
    Motorola.TextMessageProtocol.TmsAcknowledgementHeaderSequenceNumber.toPy,
    Motorola.TextMessageProtocol.TmsAcknowledgementHeaderSequenceNumber.getters⟩, ackSequenceNumberValue⟩ := by
  refine classStable_one (.of_sound (.attrs fun x buf => ?_)) fun q x buf hq => if_neg hq
  simp only [ackSequenceNumberValue, if_pos, Motorola.TextMessageProtocol.TmsAcknowledgementHeaderSequenceNumber.sequence_number]
  cases x.header_msb_bits with
  | none => rfl
  | some m => simp only [Except.map, Nat.shiftLeft_eq]

theorem pduType_stable : ClassStable ⟨⟨"TextMessageProtocol", _, Motorola.TextMessageProtocol.read, Motorola.TextMessageProtocol.toPy,
    Motorola.TextMessageProtocol.getters⟩, pduTypeValue⟩ := by
  refine classStable_one (.of_sound (.attrs fun x buf => ?_)) fun q x buf hq => if_neg hq
  simp only [pduTypeValue, if_pos, Motorola.TextMessageProtocol.customPduType]
  cases x.message_header.acknowledgement_required <;> cases x.message_header.control_user_bit <;> rfl

theorem decodeAscii_none (b : Bytes) : decodeAscii b = none ↔ ¬ ∀ x ∈ b, x.toNat < 128 := by
  induction b with
  | nil => simp [decodeAscii]
  | cons x xs ih =>
    by_cases hx : x.toNat < 128
    · simp only [decodeAscii, List.forall_mem_cons, hx, true_and, if_true, Option.map_eq_none_iff, ih]
    · simp only [decodeAscii, List.forall_mem_cons, hx, false_and, not_false_eq_true, if_false]

theorem gpsdata_stable : ClassStable ⟨⟨"Gpsdata", _, Gpsdata.read, Gpsdata.toPy, Gpsdata.getters⟩, gpsdataValue⟩ := by
  refine classStable_one (.of_sound (.attrs fun x buf => ?_)) fun q x buf hq => if_neg hq
  simp only [gpsdataValue, if_pos, Gpsdata.gps_available]
  cases hd : decodeAscii x.gps_status with
  | none => rw [if_neg ((decodeAscii_none _).1 hd)]; rfl
  | some s =>
    rw [if_pos (by
      by_contra h
      rw [(decodeAscii_none _).2 h] at hd
      cases hd)]
    have e : (s = "A".toList) ↔ (x.gps_status = [65]) := by
      constructor
      · intro h
        rw [h, decodeAscii_iff] at hd
        have : Spec.encAscii "A".toList = some [65] := by decide +kernel
        rw [this] at hd
        exact (Option.some.inj hd).symm
      · intro h
        rw [h] at hd
        have : decodeAscii [65] = some "A".toList := by decide +kernel
        rw [this] at hd
        exact (Option.some.inj hd).symm
    simp only [Except.map, e]

theorem optionSumLen_stable : ClassStable ⟨⟨"TextMessageProtocol", _, Hytera.TextMessageProtocol.read, Hytera.TextMessageProtocol.toPy,
    Hytera.TextMessageProtocol.getters⟩, textMessageValue⟩ := by
  refine classStable_one (.of_sound (.attrs fun x buf => ?_)) fun q x buf hq => if_neg hq
  simp only [textMessageValue, if_pos]
  rcases x.option_flag with (_ | _) | v
  · rfl
  · cases x.option_field_len <;> rfl
  · rfl

theorem shortRaw_stable : ClassStable ⟨⟨"DataHeaderShortRaw", _, DmrDataHeader.DataHeaderShortRaw.read, DmrDataHeader.DataHeaderShortRaw.toPy,
    DmrDataHeader.DataHeaderShortRaw.getters⟩,
    fun x _ => appendedBlocksValue x.appended_blocks_msb x.appended_blocks_lsb⟩ := by
  refine classStable_one (.of_sound (.attrs fun x buf => ?_)) fun q x buf hq => if_neg hq
  simp only [appendedBlocksValue, if_pos, DmrDataHeader.DataHeaderShortRaw.appended_blocks, Nat.shiftLeft_eq]

theorem shortStatus_stable : ClassStable ⟨⟨"DataHeaderShortStatusPrecoded", _, DmrDataHeader.DataHeaderShortStatusPrecoded.read, DmrDataHeader.DataHeaderShortStatusPrecoded.toPy,
    DmrDataHeader.DataHeaderShortStatusPrecoded.getters⟩,
    fun x _ => appendedBlocksValue x.appended_blocks_msb x.appended_blocks_lsb⟩ := by
  refine classStable_one (.of_sound (.attrs fun x buf => ?_)) fun q x buf hq => if_neg hq
  simp only [appendedBlocksValue, if_pos, DmrDataHeader.DataHeaderShortStatusPrecoded.appended_blocks, Nat.shiftLeft_eq]

theorem shortDefined_stable : ClassStable ⟨⟨"DataHeaderShortDefined", _, DmrDataHeader.DataHeaderShortDefined.read, DmrDataHeader.DataHeaderShortDefined.toPy,
    DmrDataHeader.DataHeaderShortDefined.getters⟩,
    fun x _ => appendedBlocksValue x.appended_blocks_msb x.appended_blocks_lsb⟩ := by
  refine classStable_one (.of_sound (.attrs fun x buf => ?_)) fun q x buf hq => if_neg hq
  simp only [appendedBlocksValue, if_pos, DmrDataHeader.DataHeaderShortDefined.appended_blocks, Nat.shiftLeft_eq]

theorem location_stable : ClassStable ⟨⟨"LocationProtocol", _, LocationProtocol.read, LocationProtocol.toPy, LocationProtocol.getters⟩,
    locationValue⟩ := by
  refine classStable_one (.of_sound (.peek 0 1 (by decide)
    (fun raw => .ok (resolveEnum LocationProtocol.LpGeneralTypes (u8 raw 0))) (EnumVal.toPy "LpGeneralTypes")
    (fun x io => by
      simp only [Bind.bind, Rd.bind, posIo, seekIo, asEnum, readU1, Pure.pure, Rd.pure]
      rcases readBytes 1 { io with pos := 0 } with ⟨_ | _, _⟩ <;> rfl) fun x buf => ?_)) fun q x buf hq => if_neg hq
  simp only [locationValue, if_pos]
  cases buf with
  | nil => rfl
  | cons a buf =>
    rw [if_pos (by simp), serviceFamily_eq]; rfl

theorem telemetry_stable : ClassStable ⟨⟨"TelemetryProtocol", _, TelemetryProtocol.read, TelemetryProtocol.toPy, TelemetryProtocol.getters⟩,
    telemetryValue⟩ := by
  refine classStable_one (.of_sound (.peek 0 2 (by decide)
    (fun raw => .ok (resolveEnum TelemetryProtocol.ServiceSpecificTypes (u16be raw 0))) (EnumVal.toPy "ServiceSpecificTypes")
    (fun x io => by
      simp only [Bind.bind, Rd.bind, posIo, seekIo, asEnum, readU2be, Pure.pure, Rd.pure]
      rcases readBytes 2 { io with pos := 0 } with ⟨_ | _, _⟩ <;> rfl) fun x buf => ?_)) fun q x buf hq => if_neg hq
  simp only [telemetryValue, if_pos]
  match buf with
  | [] => rfl
  | [a] => rfl
  | a :: b :: buf => rw [if_pos (by simp)]; rfl

theorem lookup_forall {B : Type} {P : String → B → Prop} {l : List (String × B)} (h : ∀ x ∈ l, P x.1 x.2) (p : String) (g : B)
    (hp : l.lookup p = some g) : P p g := by
  induction l with
  | nil => cases hp
  | cons a l ih =>
    rw [List.lookup_cons] at hp
    by_cases e : p = a.1
    · rw [show (p == a.1) = true by simpa using e] at hp
      cases hp
      rw [e]; exact h a List.mem_cons_self
    · rw [show (p == a.1) = false by simpa using e] at hp
      exact ih (fun x hx => h x (List.mem_cons_of_mem _ hx)) hp

theorem lookup_ne {B : Type} {l : List (String × B)} (p : String) (hp : l.lookup p = none) : ∀ x ∈ l, p ≠ x.1 := by
  induction l with
  | nil => simp
  | cons a l ih =>
    rw [List.lookup_cons] at hp
    by_cases e : p = a.1
    · rw [show (p == a.1) = true by simpa using e] at hp
      cases hp
    · rw [show (p == a.1) = false by simpa using e] at hp
      intro x hx
      rcases List.mem_cons.1 hx with rfl | hx
      · exact e
      · exact ih hp x hx

theorem classStable_of {s : LazySpec} (h : ∀ x ∈ s.cls.getters, Stable s.value x.1 x.2)
    (hn : ∀ q x buf, (∀ y ∈ s.cls.getters, q ≠ y.1) → s.value x buf q = .error .attribute) : ClassStable s :=
  ⟨fun p g hp => lookup_forall h p g hp, fun p x buf hp => hn p x buf (lookup_ne p hp)⟩

theorem classStable_two {nm : String} {rd : Rd A} {view : A → PyVal} {value : A → Bytes → String → Except PyErr PyVal} {p₁ p₂ : String}
    {g₁ g₂ : Getter A} (h₁ : Stable value p₁ g₁) (h₂ : Stable value p₂ g₂)
    (hn : ∀ q x buf, q ≠ p₁ → q ≠ p₂ → value x buf q = .error .attribute) :
    ClassStable ⟨⟨nm, A, rd, view, [(p₁, g₁), (p₂, g₂)]⟩, value⟩ := by
  refine classStable_of ?_ fun q x buf h => ?_
  · simp only [List.forall_mem_cons]
    exact ⟨h₁, h₂, by simp⟩
  · simp only [List.forall_mem_cons] at h
    exact hn q x buf h.1 h.2.1

theorem classStable_four {nm : String} {rd : Rd A} {view : A → PyVal} {value : A → Bytes → String → Except PyErr PyVal}
    {p₁ p₂ p₃ p₄ : String} {g₁ g₂ g₃ g₄ : Getter A} (h₁ : Stable value p₁ g₁) (h₂ : Stable value p₂ g₂)
    (h₃ : Stable value p₃ g₃) (h₄ : Stable value p₄ g₄)
    (hn : ∀ q x buf, q ≠ p₁ → q ≠ p₂ → q ≠ p₃ → q ≠ p₄ → value x buf q = .error .attribute) :
    ClassStable ⟨⟨nm, A, rd, view, [(p₁, g₁), (p₂, g₂), (p₃, g₃), (p₄, g₄)]⟩, value⟩ := by
  refine classStable_of ?_ fun q x buf h => ?_
  · simp only [List.forall_mem_cons]
    exact ⟨h₁, h₂, h₃, h₄, by simp⟩
  · simp only [List.forall_mem_cons] at h
    exact hn q x buf h.1 h.2.1 h.2.2.1 h.2.2.2.1

theorem radioIp_stable : ClassStable ⟨⟨"RadioIp", _, RadioIp.read, RadioIp.toPy, RadioIp.getters⟩, radioIpValue⟩ := by
  refine classStable_two (.of_sound (.attrs fun x buf => ?_)) (.of_sound (.attrs fun x buf => ?_))
    fun q x buf h₁ h₂ => ?_
  · simp only [radioIpValue, if_pos, RadioIp.radio_id, Nat.shiftLeft_eq]
  · simp only [radioIpValue, RadioIp.radio_ip]
    rw [if_neg (by decide), if_pos trivial]
    simp [List.intercalate, List.intersperse]
  · simp only [radioIpValue, if_neg h₁, if_neg h₂]

theorem ipsc_stable : ClassStable ⟨⟨"IpSiteConnectProtocol", _, IpSiteConnectProtocol.read, IpSiteConnectProtocol.toPy, IpSiteConnectProtocol.getters⟩,
    ipscValue⟩ := by
  refine classStable_four (.of_sound (.attrs fun x buf => ?_)) (.of_sound (.attrs fun x buf => ?_))
    (.of_sound (.attrs fun x buf => ?_)) (.of_sound (.attrs fun x buf => ?_)) fun q x buf h₁ h₂ h₃ h₄ => ?_
  · simp only [ipscValue, if_pos, IpSiteConnectProtocol.source_radio_id, Nat.shiftRight_eq_div_pow]
  · simp only [ipscValue, IpSiteConnectProtocol.destination_radio_id, Nat.shiftRight_eq_div_pow]
    rw [if_neg (by decide), if_pos trivial]
  · simp only [ipscValue, IpSiteConnectProtocol.color_code]
    rw [if_neg (by decide), if_neg (by decide), if_pos trivial, show x.color_code_raw &&& 15 = x.color_code_raw % 16 from
      Nat.and_two_pow_sub_one_eq_mod x.color_code_raw 4]
  · simp only [ipscValue, IpSiteConnectProtocol.is_wakeup]
    rw [if_neg (by decide), if_neg (by decide), if_neg (by decide), if_pos trivial]
    simp only [Bool.decide_or, Bool.or_assoc]
  · simp only [ipscValue, if_neg h₁, if_neg h₂, if_neg h₃, if_neg h₄]

theorem fifth_eq (buf : Bytes) :
    (if 4 + 1 ≤ buf.length then
      (match decodeAscii ((buf.drop 4).take 1) with
        | some s => (.ok s : Except PyErr PyStr)
        | none => .error .unicode).map PyVal.str
      else .error .eof) = fifthLetterValue buf "fifth_letter" := by
  simp only [fifthLetterValue, if_pos]
  by_cases h : 4 + 1 ≤ buf.length
  · rw [if_pos h, List.getElem?_eq_getElem (by omega : 4 < buf.length), List.drop_eq_getElem_cons (by omega),
      List.take_succ_cons, List.take_zero]
    by_cases hc : (buf[4]).toNat < 128
    · simp [decodeAscii, hc, Except.map]
    · simp [decodeAscii, hc, Except.map]
  · rw [if_neg h, List.getElem?_eq_none (by omega)]

theorem readFifth_eq (io : Stream) : Homebrew.readFifthLetter io =
    (do let pos ← posIo
        seekIo 4
        let raw ← readBytes 1
        let v ← (fun s => ((match decodeAscii raw with | some s => .ok s | none => .error .unicode), s) : Rd PyStr)
        seekIo pos
        return some (PyVal.str v) : Rd (Option PyVal)) io := by
  simp only [Homebrew.readFifthLetter, Bind.bind, Rd.bind, posIo, seekIo, decodeWith, Pure.pure]
  rcases readBytes 1 { io with pos := 4 } with ⟨_ | raw, _⟩
  · rfl
  · dsimp only
    cases decodeAscii raw <;> rfl

theorem homebrew_stable : ClassStable ⟨⟨"Homebrew2015", _, Homebrew2015.read, Homebrew2015.toPy, Homebrew2015.getters⟩, fun _ => fifthLetterValue⟩ := by
  exact classStable_one (.of_sound (.peek 4 1 (by decide)
    (fun raw => match decodeAscii raw with | some s => .ok s | none => .error .unicode) PyVal.str
    (fun x io => readFifth_eq io) fun x buf => fifth_eq buf)) fun q x buf hq => if_neg hq

theorem mmdvm_stable : ClassStable ⟨⟨"Mmdvm2020", _, Mmdvm2020.read, Mmdvm2020.toPy, Mmdvm2020.getters⟩, fun _ => fifthLetterValue⟩ := by
  exact classStable_one (.of_sound (.peek 4 1 (by decide)
    (fun raw => match decodeAscii raw with | some s => .ok s | none => .error .unicode) PyVal.str
    (fun x io => readFifth_eq io) fun x buf => fifth_eq buf)) fun q x buf hq => if_neg hq

/-- The last byte of a packet, as the properties see it. -/
theorem rtp_last (x : RealTimeTransportProtocol) (hx : x.fixed_header.padding = true) (buf : Bytes) (p : String)
    (hp : p = "len_padding_if_exists" ∨ p = "len_padding") :
    rtpValue x buf p = match buf.getLast? with | some n => .ok (.int n.toNat) | none => .error .value := by
  rcases hp with rfl | rfl
  · simp only [rtpValue, if_pos, hx]
  · simp only [rtpValue, hx, if_true]
    rw [if_neg (by decide)]

theorem rtp_if_exists : Stable rtpValue "len_padding_if_exists" RealTimeTransportProtocol.getLenPaddingIfExists := by
  refine .of_sound (.stream fun x io => ?_)
  by_cases hx : x.fixed_header.padding = true
  · rw [rtp_last x hx _ _ (.inl rfl)]
    simp only [if_pos hx]
    rcases List.eq_nil_or_concat io.buf with hb | ⟨l, a, hb⟩
    · simp only [Bind.bind, Rd.bind, posIo, sizeIo, hb, List.length_nil, seekInt]
      refine ⟨rfl, hb, fun h => ?_⟩
      cases h
    · have hl : io.buf.length = l.length + 1 := by rw [hb]; simp
      have hd : io.buf.drop l.length = [a] := by rw [hb]; simp
      have hlast : io.buf.getLast? = some a := by rw [hb]; simp
      have hs : seekInt ((io.buf.length : Int) - 1) = seekIo l.length := by
        unfold seekInt
        rw [if_neg (by omega), show ((io.buf.length : Int) - 1).toNat = l.length by omega]
      rw [hlast]
      simp only [Bind.bind, Rd.bind, posIo, sizeIo]
      rw [hs]
      simp only [seekIo, readU1, Bind.bind, Rd.bind, readBytes, alignToByte, readBytesNotAligned, hd]
      exact ⟨rfl, rfl, fun _ => .inr rfl⟩
  · have hx' : x.fixed_header.padding = false := by simpa using hx
    simp only [if_neg hx]
    refine ⟨?_, rfl, fun _ => .inl rfl⟩
    simp only [rtpValue, if_pos, hx', Bool.false_eq_true, if_false]
    rfl

theorem rtp_padding : Stable rtpValue "len_padding" RealTimeTransportProtocol.getLenPadding := by
  refine .of_sound fun o io ho => ?_
  by_cases hx : o.attrs.fixed_header.padding = true
  · obtain ⟨h1, h2, h3, h4, h5⟩ := rtp_if_exists o io ho
    rw [rtp_last _ hx _ _ (.inl rfl)] at h1
    rw [rtp_last _ hx _ _ (.inr rfl)]
    simp only [if_pos hx]
    rcases hg : RealTimeTransportProtocol.getLenPaddingIfExists o io with ⟨e | v, o', io'⟩
    · rw [hg] at h1 h2 h3 h4; exact ⟨h1, h2, h3, h4, fun h => by cases h⟩
    · rw [hg] at h1 h2 h3 h4 h5; exact ⟨h1, h2, h3, h4, fun _ => h5 rfl⟩
  · have hx' : o.attrs.fixed_header.padding = false := by simpa using hx
    simp only [if_neg hx]
    refine ⟨?_, trivial, ho, trivial, fun _ => .inl rfl⟩
    simp only [rtpValue, hx', Bool.false_eq_true, if_false]
    rw [if_neg (by decide)]
    rfl

theorem rtp_stable : ClassStable ⟨⟨"RealTimeTransportProtocol", _, RealTimeTransportProtocol.read, RealTimeTransportProtocol.toPy,
    RealTimeTransportProtocol.getters⟩, rtpValue⟩ :=
  classStable_two rtp_if_exists rtp_padding fun q x buf h₁ h₂ => by simp only [rtpValue, if_neg h₁, if_neg h₂]

theorem lookup_setAttr (l : List (String × PyVal)) (n m : String) (v : PyVal) (h : m ≠ n) :
    (setAttr l n v).lookup m = l.lookup m := by
  unfold setAttr
  split
  · clear * - h
    induction l with
    | nil => rfl
    | cons a l ih =>
      obtain ⟨k, u⟩ := a
      simp only [List.map_cons]
      by_cases ha : k = n
      · simp only [if_pos ha, List.lookup_cons]
        have : (m == n) = false := by simpa using h
        rw [this, show (m == k) = false by rw [ha]; exact this]
        exact ih
      · simp only [if_neg ha, List.lookup_cons]
        cases m == k
        · exact ih
        · rfl
  · clear * - h
    induction l with
    | nil =>
      have : (m == n) = false := by simpa using h
      simp [List.lookup_cons, this]
    | cons a l ih =>
      obtain ⟨k, u⟩ := a
      simp only [List.cons_append, List.lookup_cons]
      cases m == k
      · exact ih
      · rfl

theorem raw_ne (p : String) : "_m_" ++ p ≠ "_raw__m_data" := by
  intro h
  have := congrArg String.toList h
  rw [String.toList_append] at this
  have e : "_m_".toList = ['_', 'm', '_'] := by decide +kernel
  have e' : "_raw__m_data".toList = ['_', 'r', 'a', 'w', '_', '_', 'm', '_', 'd', 'a', 't', 'a'] := by decide +kernel
  rw [e, e'] at this
  simp at this

theorem dataHeader_stable : ClassStable ⟨⟨"DmrDataHeader", _, DmrDataHeader.read, DmrDataHeader.toPy, DmrDataHeader.getters⟩, dataHeaderValue⟩ := by
  refine classStable_one (.of_sound fun o io ho => ?_) fun q x buf hq => if_neg hq
  have hr : (do let pos ← posIo
                seekIo 0
                let raw ← readBytes 12
                return (pos, raw) : Rd (Nat × Bytes)) io =
      if 12 ≤ io.buf.length then (.ok (io.pos, io.buf.take 12), { io with pos := 12, bits := 0, bitsLeft := 0 })
      else (.error .eof, { io with pos := io.buf.length, bits := 0, bitsLeft := 0 }) := by
    simp only [Bind.bind, Rd.bind, posIo, seekIo, readBytes, alignToByte, readBytesNotAligned, Pure.pure, Rd.pure,
      List.drop_zero, List.length_take, Nat.zero_add]
    by_cases h : 12 ≤ io.buf.length
    · rw [if_pos h, if_pos (by omega)]
      dsimp only
      rw [show min 12 io.buf.length = 12 by omega]
    · rw [if_neg h, if_neg (by omega)]
      dsimp only
      rw [show min 12 io.buf.length = io.buf.length by omega]
  simp only [hr, dataHeaderValue, if_pos]
  have ho' : Honest dataHeaderValue
      { o with caches := setAttr o.caches "_raw__m_data" (.bytes (io.buf.take 12)) } io.buf := by
    intro p v hv
    rw [lookup_setAttr _ _ _ _ (raw_ne p)] at hv
    exact ho p v hv
  by_cases h : 12 ≤ io.buf.length
  · simp only [if_pos h]
    rcases fromBytes (DmrDataHeader.readDataBody o.attrs.data_packet_format) (io.buf.take 12) with e | d
    · exact ⟨rfl, rfl, ho', rfl, fun h => by cases h⟩
    · exact ⟨rfl, rfl, ho', rfl, fun _ => .inr rfl⟩
  · simp only [if_neg h]
    exact ⟨rfl, trivial, ho, trivial, fun h => by cases h⟩

theorem lazySpecs_stable : ∀ s ∈ lazySpecs, ClassStable s := by
  simp only [lazySpecs, List.forall_mem_cons]
  exact ⟨radioIp_stable, radioId_stable, gpsdata_stable, ipsc_stable, rtp_stable, telemetry_stable, optionSumLen_stable,
    location_stable, sequence_stable, ackSequence_stable, pduType_stable, homebrew_stable, mmdvm_stable, shortRaw_stable,
    shortStatus_stable, shortDefined_stable, dataHeader_stable, by simp⟩

theorem access_stable (x : Subject) (hs : ClassStable x.spec) (p : String) (io : Stream) (hh : x.Honest io.buf) :
    ∃ (y : Subject) (io' : Stream), x.toInstance.access p io = (x.value io.buf p, Subject.toInstance y, io') ∧ y.attributes = x.attributes ∧
      y.Honest io.buf ∧ io'.buf = io.buf ∧ ((x.value io.buf p).toBool = true → Kept io io') := by
  obtain ⟨s, o⟩ := x
  unfold Instance.access
  cases hg : (Subject.toInstance ⟨s, o⟩).cls.getters.lookup p with
  | none =>
    refine ⟨⟨s, o⟩, io, ?_, rfl, hh, rfl, fun _ => .inl rfl⟩
    dsimp only
    rw [show Subject.value ⟨s, o⟩ io.buf p = .error .attribute from hs.2 p o.attrs io.buf hg]
  | some g =>
    obtain ⟨h1, h2, h3, h4, h5⟩ := hs.1 p g hg o io hh
    refine ⟨⟨s, (g o io).2.1⟩, (g o io).2.2, ?_, ?_, h3, h4, fun h => h5 (by rw [h1]; exact h)⟩
    · rw [show Subject.value ⟨s, o⟩ io.buf p = (g o io).1 from h1.symm]; rfl
    · simp only [Subject.attributes, h2]

theorem attributes_value {x y : Subject} (h : y.attributes = x.attributes) (buf : Bytes) (p : String) :
    y.value buf p = x.value buf p := by
  obtain ⟨s, o⟩ := x
  obtain ⟨t, o'⟩ := y
  simp only [Subject.attributes, Sigma.mk.injEq] at h
  obtain ⟨rfl, h⟩ := h
  simp only [Subject.value, eq_of_heq h]

theorem attributes_spec {x y : Subject} (h : y.attributes = x.attributes) : y.spec = x.spec := congrArg Sigma.fst h

theorem expected_congr {subs subs' : List Subject} (h : subs'.map Subject.attributes = subs.map Subject.attributes) (buf : Bytes)
    (a : Nat × String) : expectedOutcome subs' buf a = expectedOutcome subs buf a := by
  have := congrArg (fun l => l[a.1]?) h
  simp only [List.getElem?_map] at this
  unfold expectedOutcome
  cases h1 : subs[a.1]? <;> cases h2 : subs'[a.1]? <;> rw [h1, h2] at this
  · simp at this
  · simp at this
  · exact attributes_value (Option.some.inj this) _ _

end Properties

open Properties in
/-- **C55.** Objects of any classes with properties share a stream. Whatever the order and the number of accesses, each access gives
what its property is specified to be; no object changes but in its caches, which stay truthful; the stream keeps its bytes, and its
position too unless an access raises. -/
theorem C55_interleaved (subs : List Subject) (io : Stream) (schedule : List (Nat × String))
    (known : ∀ x ∈ subs, x.spec ∈ lazySpecs) (honest : ∀ x ∈ subs, x.Honest io.buf) :
    ∃ (subs' : List Subject) (io' : Stream), accessAll (subs.map Subject.toInstance) io schedule =
        (schedule.map (expectedOutcome subs io.buf), subs'.map Subject.toInstance, io') ∧
      subs'.map Subject.attributes = subs.map Subject.attributes ∧ (∀ x ∈ subs', x.Honest io.buf) ∧ io'.buf = io.buf ∧
      ((∀ a ∈ schedule, (expectedOutcome subs io.buf a).toBool = true) → io'.pos = io.pos) := by
  suffices h : ∃ (subs' : List Subject) (io' : Stream), accessAll (subs.map Subject.toInstance) io schedule =
        (schedule.map (expectedOutcome subs io.buf), subs'.map Subject.toInstance, io') ∧
      subs'.map Subject.attributes = subs.map Subject.attributes ∧ (∀ x ∈ subs', x.Honest io.buf) ∧ io'.buf = io.buf ∧
      ((∀ a ∈ schedule, (expectedOutcome subs io.buf a).toBool = true) → Kept io io') by
    obtain ⟨subs', io', h1, h2, h3, h4, h5⟩ := h
    refine ⟨subs', io', h1, h2, h3, h4, fun h => ?_⟩
    rcases h5 h with rfl | rfl <;> rfl
  induction schedule generalizing subs io with
  | nil => exact ⟨subs, io, rfl, rfl, honest, rfl, fun _ => .inl rfl⟩
  | cons a rest ih =>
    obtain ⟨k, p⟩ := a
    unfold accessAll
    rw [List.getElem?_map]
    cases hk : subs[k]? with
    | none =>
      obtain ⟨subs', io', h1, h2, h3, h4, h5⟩ := ih subs io known honest
      refine ⟨subs', io', ?_, h2, h3, h4, fun h => h5 fun a ha => h a (List.mem_cons_of_mem _ ha)⟩
      simp only [Option.map_none, h1, List.map_cons, expectedOutcome, hk]
    | some x =>
      have hx : x ∈ subs := List.mem_of_getElem? hk
      obtain ⟨y, io1, g1, g2, g3, g4, g5⟩ := access_stable x (lazySpecs_stable _ (known x hx)) p io (honest x hx)
      have hmem : ∀ z ∈ subs.set k y, z = y ∨ z ∈ subs := fun z hz => (List.mem_or_eq_of_mem_set hz).symm
      have hat : (subs.set k y).map Subject.attributes = subs.map Subject.attributes := by
        rw [List.map_set, g2]
        apply List.ext_getElem?
        intro i
        rw [List.getElem?_set, List.length_map, List.getElem?_map]
        split
        · rename_i e
          subst e
          obtain ⟨hlt, he⟩ := List.getElem?_eq_some_iff.1 hk
          rw [if_pos hlt, hk]; rfl
        · rfl
      obtain ⟨subs', io', h1, h2, h3, h4, h5⟩ := ih (subs.set k y) io1
        (fun z hz => by rcases hmem z hz with rfl | h
                        · rw [attributes_spec g2]; exact known x hx
                        · exact known z h)
        (fun z hz => by rw [g4]; rcases hmem z hz with rfl | h
                        · exact g3
                        · exact honest z h)
      refine ⟨subs', io', ?_, h2.trans hat, fun z hz => by rw [← g4]; exact h3 z hz, h4.trans g4, fun h => ?_⟩
      · rw [List.map_set] at h1
        simp only [Option.map_some, g1, h1, List.map_cons]
        congr 1
        refine List.cons_eq_cons.2 ⟨by simp only [expectedOutcome, hk], List.map_congr_left fun a _ => ?_⟩
        rw [g4]; exact expected_congr hat _ _
      · have hv : (x.value io.buf p).toBool = true := by
          have := h (k, p) List.mem_cons_self
          simpa only [expectedOutcome, hk] using this
        refine (g5 hv).trans (h5 fun a ha => ?_)
        rw [g4, expected_congr hat]
        exact h a (List.mem_cons_of_mem _ ha)

end Dmr
