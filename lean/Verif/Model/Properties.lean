import Verif.Model.Tools.PyView
/-
The lazily computed properties of all classes (hand-written). Each is

    @property
    def p(self):
        if hasattr(self, "_m_p"): return self._m_p
        ...
        self._m_p = ...
        return getattr(self, "_m_p", None)

so an access may add a cache attribute to the object and may move the stream, which the object shares with everything else that
was decoded from it.
-/

set_option autoImplicit false

namespace Dmr

variable {A : Type}

/-- okdmr/kaitai/hytera/radio_id.py:14-32 (and all other classes) an object in use: what `_read` has assigned, and the
cache attributes `_m_...` in the order of their creation. -/
structure PyObj (A : Type) where
  attrs : A
  caches : List (String × PyVal)

/-- okdmr/kaitai/hytera/radio_id.py:26-32 (and all other properties) what an access does: the value or the exception, the object
and the stream afterwards. -/
abbrev Getter (A : Type) : Type := PyObj A → Stream → Except PyErr PyVal × PyObj A × Stream

/-- okdmr/kaitai/hytera/radio_id.py:31 (and all other properties) the statements between `hasattr` and `return`: the value that is
assigned to the cache, if one is assigned. -/
abbrev GetterBody (A : Type) : Type := PyObj A → Stream → Except PyErr (Option PyVal) × PyObj A × Stream

/-- okdmr/kaitai/hytera/radio_id.py:26-32 (and all other properties) the frame of a property with name `p`. -/
def property (p : String) (body : GetterBody A) : Getter A := fun o io =>
  match o.caches.lookup ("_m_" ++ p) with
  | some v => (.ok v, o, io)
  | none =>
    match body o io with
    | (.error e, o, io) => (.error e, o, io)
    | (.ok none, o, io) => (.ok .none, o, io)
    | (.ok (some v), o, io) => (.ok v, { o with caches := o.caches ++ [("_m_" ++ p, v)] }, io)

/-- okdmr/kaitai/hytera/radio_id.py:31 (and others) a value computed from the attributes. -/
def fromAttrs (f : A → Except PyErr PyVal) : GetterBody A := fun o io =>
  match f o.attrs with
  | .error e => (.error e, o, io)
  | .ok v => (.ok (some v), o, io)

/-- okdmr/kaitai/hytera/telemetry_protocol.py:208-213 (and others) a value read from the stream. -/
def fromStream (r : A → Rd (Option PyVal)) : GetterBody A := fun o io =>
  match r o.attrs io with
  | (v, io) => (v, o, io)

/-- okdmr/kaitai/hytera/real_time_transport_protocol.py:103 `self._io.seek(n)` for a number that may be negative: BytesIO raises
ValueError then. -/
def seekInt (n : Int) : Rd Unit := if n < 0 then Rd.throw .value else seekIo n.toNat

/-- okdmr/kaitai/etsi/dmr_data_header.py:409 assignment to an attribute. -/
def setAttr (l : List (String × PyVal)) (n : String) (v : PyVal) : List (String × PyVal) :=
  if (l.lookup n).isSome then l.map fun x => if x.1 = n then (n, v) else x else l ++ [(n, v)]

namespace Hytera

/-- okdmr/kaitai/hytera/radio_ip.py:32-56 -/
def RadioIp.getters : List (String × Getter RadioIp) :=
  [("radio_id", property "radio_id" (fromAttrs fun x => .ok (.int (Int.ofNat x.radio_id)))),
   ("radio_ip", property "radio_ip" (fromAttrs fun x => .ok (.str x.radio_ip)))]

/-- okdmr/kaitai/hytera/radio_id.py:26-32 -/
def RadioId.getters : List (String × Getter RadioId) :=
  [("radio_id", property "radio_id" (fromAttrs fun x => .ok (.int (Int.ofNat x.radio_id))))]

/-- okdmr/kaitai/hytera/gpsdata.py:32-38 -/
def Gpsdata.getters : List (String × Getter Gpsdata) :=
  [("gps_available", property "gps_available" (fromAttrs fun x => x.gps_available.map .bool))]

/-- okdmr/kaitai/hytera/ip_site_connect_protocol.py:100-137 -/
def IpSiteConnectProtocol.getters : List (String × Getter IpSiteConnectProtocol) :=
  [("source_radio_id", property "source_radio_id" (fromAttrs fun x => .ok (.int (Int.ofNat x.source_radio_id)))),
   ("destination_radio_id", property "destination_radio_id" (fromAttrs fun x => .ok (.int (Int.ofNat x.destination_radio_id)))),
   ("color_code", property "color_code" (fromAttrs fun x => .ok (.int (Int.ofNat x.color_code)))),
   ("is_wakeup", property "is_wakeup" (fromAttrs fun x => .ok (.bool x.is_wakeup)))]

/-- okdmr/kaitai/hytera/real_time_transport_protocol.py:96-107 -/
def RealTimeTransportProtocol.getLenPaddingIfExists : Getter RealTimeTransportProtocol :=
  property "len_padding_if_exists" (fromStream fun x => do
    if x.fixed_header.padding then
      let pos ← posIo
      let size ← sizeIo
      seekInt ((size : Int) - 1)
      let v ← readU1
      seekIo pos
      return some (.int (Int.ofNat v))
    else return none)

/-- okdmr/kaitai/hytera/real_time_transport_protocol.py:109-117 -/
def RealTimeTransportProtocol.getLenPadding : Getter RealTimeTransportProtocol :=
  property "len_padding" fun o io =>
    if o.attrs.fixed_header.padding then
      match RealTimeTransportProtocol.getLenPaddingIfExists o io with
      | (.error e, o, io) => (.error e, o, io)
      | (.ok v, o, io) => (.ok (some v), o, io)
    else (.ok (some (.int 0)), o, io)

/-- okdmr/kaitai/hytera/real_time_transport_protocol.py:96-117 -/
def RealTimeTransportProtocol.getters : List (String × Getter RealTimeTransportProtocol) :=
  [("len_padding_if_exists", RealTimeTransportProtocol.getLenPaddingIfExists),
   ("len_padding", RealTimeTransportProtocol.getLenPadding)]

/-- okdmr/kaitai/hytera/telemetry_protocol.py:203-214 -/
def TelemetryProtocol.getters : List (String × Getter TelemetryProtocol) :=
  [("specific_service", property "specific_service" (fromStream fun _ => do
    let pos ← posIo
    seekIo 0
    let v ← asEnum TelemetryProtocol.ServiceSpecificTypes readU2be
    seekIo pos
    return some (EnumVal.toPy "ServiceSpecificTypes" v)))]

/-- okdmr/kaitai/hytera/text_message_protocol.py:98-106 -/
def TextMessageProtocol.getters : List (String × Getter TextMessageProtocol) :=
  [("option_sum_len", property "option_sum_len" (fromAttrs fun x =>
    match x.option_flag with
    | .raw _ => .error .attribute
    | .known f =>
      if PyEnum.value f = 1 then
        match x.option_field_len with
        | some n => .ok (.int (Int.ofNat (n + 2)))
        | none => .error .attribute
      else .ok (.int 0)))]

/-- okdmr/kaitai/hytera/location_protocol.py:393-404 -/
def LocationProtocol.getters : List (String × Getter LocationProtocol) :=
  [("opcode", property "opcode" (fromStream fun _ => do
    let pos ← posIo
    seekIo 0
    let v ← asEnum LocationProtocol.LpGeneralTypes readU1
    seekIo pos
    return some (EnumVal.toPy "LpGeneralTypes" v)))]

end Hytera

namespace Motorola

/-- okdmr/kaitai/motorola/text_message_protocol.py:110-118 -/
def TextMessageProtocol.TextMessageHeaderSequenceAndEncoding.getters :
    List (String × Getter TextMessageProtocol.TextMessageHeaderSequenceAndEncoding) :=
  [("sequence_number", property "sequence_number" (fromAttrs fun x => x.sequence_number.map fun n => .int (Int.ofNat n)))]

/-- okdmr/kaitai/motorola/text_message_protocol.py:173-179 -/
def TextMessageProtocol.TmsAcknowledgementHeaderSequenceNumber.getters :
    List (String × Getter TextMessageProtocol.TmsAcknowledgementHeaderSequenceNumber) :=
  [("sequence_number", property "sequence_number" (fromAttrs fun x => x.sequence_number.map fun n => .int (Int.ofNat n)))]

/-- okdmr/kaitai/motorola/text_message_protocol.py:209-219 (`self._root` is the object itself). -/
def TextMessageProtocol.getters : List (String × Getter TextMessageProtocol) :=
  [("custom_pdu_type", property "custom_pdu_type" (fromAttrs fun x =>
    .ok (.int (Int.ofNat (TextMessageProtocol.customPduType x.message_header)))))]

end Motorola

namespace Homebrew

/-- okdmr/kaitai/homebrew/homebrew2015.py:286-290 -/
def readFifthLetter : Rd (Option PyVal) := do
  let pos ← posIo
  seekIo 4
  let v ← decodeWith decodeAscii (readBytes 1)
  seekIo pos
  return some (.str v)

/-- okdmr/kaitai/homebrew/homebrew2015.py:282-291 -/
def Homebrew2015.getters : List (String × Getter Homebrew2015) :=
  [("fifth_letter", property "fifth_letter" (fromStream fun _ => readFifthLetter))]

/-- okdmr/kaitai/homebrew/mmdvm2020.py:358-367 -/
def Mmdvm2020.getters : List (String × Getter Mmdvm2020) :=
  [("fifth_letter", property "fifth_letter" (fromStream fun _ => readFifthLetter))]

end Homebrew

namespace Etsi

/-- okdmr/kaitai/etsi/dmr_data_header.py:151-159 -/
def DmrDataHeader.DataHeaderShortRaw.getters : List (String × Getter DmrDataHeader.DataHeaderShortRaw) :=
  [("appended_blocks", property "appended_blocks" (fromAttrs fun x => .ok (.int (Int.ofNat x.appended_blocks))))]

/-- okdmr/kaitai/etsi/dmr_data_header.py:220-228 -/
def DmrDataHeader.DataHeaderShortStatusPrecoded.getters : List (String × Getter DmrDataHeader.DataHeaderShortStatusPrecoded) :=
  [("appended_blocks", property "appended_blocks" (fromAttrs fun x => .ok (.int (Int.ofNat x.appended_blocks))))]

/-- okdmr/kaitai/etsi/dmr_data_header.py:354-362 -/
def DmrDataHeader.DataHeaderShortDefined.getters : List (String × Getter DmrDataHeader.DataHeaderShortDefined) :=
  [("appended_blocks", property "appended_blocks" (fromAttrs fun x => .ok (.int (Int.ofNat x.appended_blocks))))]

/-- okdmr/kaitai/etsi/dmr_data_header.py:399-459 (`self._root._io` is the stream of the object itself). -/
def DmrDataHeader.getters : List (String × Getter DmrDataHeader) :=
  [("data", property "data" fun o io =>
    match (do let pos ← posIo
              seekIo 0
              let raw ← readBytes 12
              return (pos, raw) : Rd (Nat × Bytes)) io with
    | (.error e, io) => (.error e, o, io)
    | (.ok (pos, raw), io) =>
      let o := { o with caches := setAttr o.caches "_raw__m_data" (.bytes raw) }
      match fromBytes (DmrDataHeader.readDataBody o.attrs.data_packet_format) raw with
      | .error e => (.error e, o, io)
      | .ok d => (.ok (some d.toPy), o, (seekIo pos io).2))]

end Etsi

/-- okdmr/kaitai/hytera/telemetry_protocol.py:66 (and others) the cache attributes among the attributes of an object: `_read` has
created some if it uses properties. -/
def PyVal.caches : PyVal → List (String × PyVal)
  | .struct _ attrs => attrs.filter fun a => "_m_".toList.isPrefixOf a.1.toList
  | _ => []

/-- okdmr/kaitai/hytera/radio_id.py:13-32 (and others) a class with its decoder, its Python view and its properties. -/
structure LazyClass where
  name : String
  Attrs : Type
  read : Rd Attrs
  view : Attrs → PyVal
  getters : List (String × Getter Attrs)

/-- okdmr/kaitai/hytera/radio_id.py:19-24 (and others) an object that has just been decoded, with what was decoded as attributes. -/
def LazyClass.fresh (c : LazyClass) (x : c.Attrs) : PyObj c.Attrs := ⟨x, (c.view x).caches⟩

/-- okdmr/kaitai/hytera/radio_id.py:13-32 (and others) an object of some class. -/
structure Instance where
  cls : LazyClass
  obj : PyObj cls.Attrs

/-- okdmr/kaitai/hytera/radio_id.py:26-32 (and others) `getattr(x, p)` for a property: AttributeError if the class has none of this name. -/
def Instance.access (x : Instance) (p : String) (io : Stream) : Except PyErr PyVal × Instance × Stream :=
  match x.cls.getters.lookup p with
  | none => (.error .attribute, x, io)
  | some g =>
    match g x.obj io with
    | (v, o, io) => (v, ⟨x.cls, o⟩, io)

/-- okdmr/kaitai/hytera/radio_id.py:26-32 (and others) one access after another, each to a property of one of several objects that share a stream: all outcomes, and the objects and
the stream afterwards. An access that raises does not stop the others. -/
def accessAll (objs : List Instance) (io : Stream) : List (Nat × String) → List (Except PyErr PyVal) × List Instance × Stream
  | [] => ([], objs, io)
  | (k, p) :: rest =>
    match objs[k]? with
    | none =>
      match accessAll objs io rest with
      | (vs, objs, io) => (.error .index :: vs, objs, io)
    | some x =>
      match x.access p io with
      | (v, x, io) =>
        match accessAll (objs.set k x) io rest with
        | (vs, objs, io) => (v :: vs, objs, io)

end Dmr
