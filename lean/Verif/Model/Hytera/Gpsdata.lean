import Verif.Runtime
/-
Model of okdmr/kaitai/hytera/gpsdata.py (generated by tools/py2lean.py from the Python AST;
definitions marked "hand-written" are not).
-/

namespace Dmr.Hytera

/-- okdmr/kaitai/hytera/gpsdata.py:21-30 attributes of `Gpsdata`. -/
structure Gpsdata where
  gps_status : Bytes
  gps_time : Bytes
  gps_date : Bytes
  north_south : Bytes
  latitude : Bytes
  east_west : Bytes
  longitude : Bytes
  speed : Bytes
  direction : Bytes
  deriving DecidableEq

/-- okdmr/kaitai/hytera/gpsdata.py:21-30 `Gpsdata._read`. -/
def Gpsdata.read : Rd Gpsdata := do
  let gps_status ← readBytes 1
  let gps_time ← readBytes 6
  let gps_date ← readBytes 6
  let north_south ← readBytes 1
  let latitude ← readBytes 9
  let east_west ← readBytes 1
  let longitude ← readBytes 10
  let speed ← readBytes 3
  let direction ← readBytes 3
  return { gps_status, gps_time, gps_date, north_south, latitude, east_west, longitude, speed, direction }

/-- okdmr/kaitai/hytera/gpsdata.py:32-38 property `gps_available` (hand-written). -/
def Gpsdata.gps_available (o : Gpsdata) : Except PyErr Bool :=
  match decodeAscii o.gps_status with
  | some s => .ok (decide (s = "A".toList))
  | none => .error .unicode

end Dmr.Hytera
