/-- okdmr/kaitai/etsi/dmr_data_header.py:151-159 property `appended_blocks` of `DataHeaderShortRaw`
(hand-written). -/
def DmrDataHeader.DataHeaderShortRaw.appended_blocks (o : DmrDataHeader.DataHeaderShortRaw) : Nat :=
  (o.appended_blocks_msb <<< 4) + o.appended_blocks_lsb

/-- okdmr/kaitai/etsi/dmr_data_header.py:220-228 property `appended_blocks` of `DataHeaderShortStatusPrecoded`
(hand-written). -/
def DmrDataHeader.DataHeaderShortStatusPrecoded.appended_blocks (o : DmrDataHeader.DataHeaderShortStatusPrecoded) : Nat :=
  (o.appended_blocks_msb <<< 4) + o.appended_blocks_lsb

/-- okdmr/kaitai/etsi/dmr_data_header.py:354-362 property `appended_blocks` of `DataHeaderShortDefined`
(hand-written). -/
def DmrDataHeader.DataHeaderShortDefined.appended_blocks (o : DmrDataHeader.DataHeaderShortDefined) : Nat :=
  (o.appended_blocks_msb <<< 4) + o.appended_blocks_lsb

/-- okdmr/kaitai/etsi/dmr_data_header.py:407-457 possible objects in `DmrDataHeader.data` (hand-written). -/
inductive DmrDataHeader.DataUnion where
  | dataHeaderProprietary (x : DmrDataHeader.DataHeaderProprietary)
  | dataHeaderShortDefined (x : DmrDataHeader.DataHeaderShortDefined)
  | dataHeaderUnconfirmed (x : DmrDataHeader.DataHeaderUnconfirmed)
  | dataHeaderConfirmed (x : DmrDataHeader.DataHeaderConfirmed)
  | dataHeaderUdt (x : DmrDataHeader.DataHeaderUdt)
  | dataHeaderShortStatusPrecoded (x : DmrDataHeader.DataHeaderShortStatusPrecoded)
  | dataHeaderResponse (x : DmrDataHeader.DataHeaderResponse)
  | dataHeaderUndefined (x : DmrDataHeader.DataHeaderUndefined)
  deriving DecidableEq

/-- okdmr/kaitai/etsi/dmr_data_header.py:407-457 the dispatch on the sub-stream of the 12 raw bytes (hand-written). -/
def DmrDataHeader.readDataBody (on : EnumVal DmrDataHeader.DataPacketFormats) : Rd DmrDataHeader.DataUnion :=
  if on = .known .proprietary then do let x ← DmrDataHeader.DataHeaderProprietary.read; return .dataHeaderProprietary x
  else if on = .known .short_data_defined then do let x ← DmrDataHeader.DataHeaderShortDefined.read; return .dataHeaderShortDefined x
  else if on = .known .data_packet_unconfirmed then do let x ← DmrDataHeader.DataHeaderUnconfirmed.read; return .dataHeaderUnconfirmed x
  else if on = .known .data_packet_confirmed then do let x ← DmrDataHeader.DataHeaderConfirmed.read; return .dataHeaderConfirmed x
  else if on = .known .unified_data_transport then do let x ← DmrDataHeader.DataHeaderUdt.read; return .dataHeaderUdt x
  else if on = .known .short_data_raw_or_status_or_precoded then do let x ← DmrDataHeader.DataHeaderShortStatusPrecoded.read; return .dataHeaderShortStatusPrecoded x
  else if on = .known .response_packet then do let x ← DmrDataHeader.DataHeaderResponse.read; return .dataHeaderResponse x
  else do let x ← DmrDataHeader.DataHeaderUndefined.read; return .dataHeaderUndefined x

/-- okdmr/kaitai/etsi/dmr_data_header.py:399-459 the Python object while its lazy property is being used
(hand-written): the parsed attributes, the caches `_m_data` and `_raw__m_data`, and the stream it keeps. -/
structure DmrDataHeader.Obj where
  attrs : DmrDataHeader
  m_data : Option DmrDataHeader.DataUnion
  raw_m_data : Option Bytes
  io : Stream
  deriving DecidableEq

/-- okdmr/kaitai/etsi/dmr_data_header.py:399-459 one access to property `data` (hand-written): the result or
exception, and the object afterwards (an exception leaves the stream where the failed read left it). -/
def DmrDataHeader.accessData (o : DmrDataHeader.Obj) :
    Except PyErr DmrDataHeader.DataUnion × DmrDataHeader.Obj :=
  match o.m_data with
  | some d => (.ok d, o)
  | none =>
    match (do let pos ← posIo
              seekIo 0
              let raw ← readBytes 12
              return (pos, raw) : Rd (Nat × Bytes)) o.io with
    | (.error e, io) => (.error e, { o with io })
    | (.ok (pos, raw), io) =>
      let o := { o with raw_m_data := some raw, io }
      match fromBytes (DmrDataHeader.readDataBody o.attrs.data_packet_format) raw with
      | .error e => (.error e, o)
      | .ok d =>
        let io := (seekIo pos io).2
        (.ok d, { o with m_data := some d, io })

/-- okdmr/kaitai/etsi/dmr_data_header.py:109-119 `DmrDataHeader.from_bytes(buf)` as an object with its
stream (hand-written). -/
def DmrDataHeader.objFromBytes (buf : Bytes) : Except PyErr DmrDataHeader.Obj :=
  match DmrDataHeader.read (Stream.new buf) with
  | (.error e, _) => .error e
  | (.ok a, io) => .ok { attrs := a, m_data := none, raw_m_data := none, io }
