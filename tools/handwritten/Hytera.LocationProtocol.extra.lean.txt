/-- okdmr/kaitai/hytera/location_protocol.py:398-403 computation inside property `opcode` (hand-written): it seeks
to offset 0 of the stream the object was parsed from, whatever that stream is. -/
def LocationProtocol.computeOpcode : Rd (EnumVal LocationProtocol.LpGeneralTypes) := do
  let pos ← posIo
  seekIo 0
  let v ← asEnum LocationProtocol.LpGeneralTypes readU1
  seekIo pos
  return v
