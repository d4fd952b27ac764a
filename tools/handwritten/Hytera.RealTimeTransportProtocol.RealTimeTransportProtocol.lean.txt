/-- okdmr/kaitai/hytera/real_time_transport_protocol.py:35-48 attributes of `RealTimeTransportProtocol`
(hand-written). `m_len_padding` is the cached property `_m_len_padding`, which `_read` always computes
(`_m_len_padding_if_exists` is the same number when the padding flag is set, absent otherwise). -/
structure RealTimeTransportProtocol where
  fixed_header : RealTimeTransportProtocol.FixedHeader
  header_extension : Option (RealTimeTransportProtocol.HeaderExtension)
  audio_data : Bytes
  m_len_padding : Nat
  padding : Option (Bytes)
  deriving DecidableEq

/-- okdmr/kaitai/hytera/real_time_transport_protocol.py:96-107 property `len_padding_if_exists` on its first
access (hand-written). `seek(size - 1)` is only reached with a 12 byte header read, so `size - 1` is not negative. -/
def RealTimeTransportProtocol.lenPaddingIfExists (h : RealTimeTransportProtocol.FixedHeader) : Rd (Option Nat) :=
  optionally h.padding (do
    let pos ← posIo
    let size ← sizeIo
    seekIo (size - 1)
    let v ← readU1
    seekIo pos
    return v)

/-- okdmr/kaitai/hytera/real_time_transport_protocol.py:109-117 property `len_padding` on its first access
(hand-written). Adding or subtracting `None` would be a TypeError; it is unreachable. -/
def RealTimeTransportProtocol.lenPadding (h : RealTimeTransportProtocol.FixedHeader) : Rd Nat := do
  if h.padding then
    let v ← RealTimeTransportProtocol.lenPaddingIfExists h
    return v.getD 0
  else return 0

/-- okdmr/kaitai/hytera/real_time_transport_protocol.py:35-48 `RealTimeTransportProtocol._read`
(hand-written). -/
def RealTimeTransportProtocol.read : Rd RealTimeTransportProtocol := do
  let fixed_header ← RealTimeTransportProtocol.FixedHeader.read
  let header_extension ← optionally (fixed_header.extension) (RealTimeTransportProtocol.HeaderExtension.read)
  let io_size ← sizeIo
  let io_pos ← posIo
  let m_len_padding ← RealTimeTransportProtocol.lenPadding fixed_header
  let audio_data ← readBytesInt ((((io_size : Int) - (io_pos : Int))) - (m_len_padding : Int))
  let padding ← optionally (fixed_header.padding) (readBytes m_len_padding)
  return { fixed_header, header_extension, audio_data, m_len_padding, padding }
