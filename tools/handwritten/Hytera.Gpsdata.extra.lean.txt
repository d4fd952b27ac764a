/-- okdmr/kaitai/hytera/gpsdata.py:32-38 property `gps_available` (hand-written). -/
def Gpsdata.gps_available (o : Gpsdata) : Except PyErr Bool :=
  match decodeAscii o.gps_status with
  | some s => .ok (decide (s = "A".toList))
  | none => .error .unicode
