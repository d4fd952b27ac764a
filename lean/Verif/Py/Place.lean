import Verif.Py.Semantics
/-
How a tree of objects (Verif/Model/Tools/PyVal, in which `_io`, `_parent` and `_root` are opaque) lies in the memory.
-/

set_option autoImplicit false

namespace Dmr.Py

/-- The outermost classes of the files. Objects of these are made by a user, or as parts of objects of other
files; objects of all other classes are made as parts of objects of the same file. -/
def fileClasses : List String :=
  ["Hytera.DataDeliveryStates", "Hytera.DataTransmitProtocol", "Hytera.Datetimestring", "Hytera.Gpsdata",
   "Hytera.HyteraDmrApplicationProtocol", "Hytera.HyteraRadioNetworkProtocol", "Hytera.HyteraSimpleTransportReliabilityProtocol",
   "Hytera.Intervalstring", "Hytera.IpSiteConnectHeartbeat", "Hytera.IpSiteConnectProtocol", "Hytera.LocationProtocol",
   "Hytera.RadioControlProtocol", "Hytera.RadioId", "Hytera.RadioIp", "Hytera.RadioRegistrationService",
   "Hytera.RealTimeTransportProtocol", "Hytera.TelemetryProtocol", "Hytera.TextMessageProtocol",
   "Etsi.DmrCsbk", "Etsi.DmrData", "Etsi.DmrDataHeader", "Etsi.DmrIpUdp", "Etsi.FullLinkControl",
   "Homebrew.Homebrew2015", "Homebrew.Mmdvm2020",
   "Motorola.AutomaticRegistrationService", "Motorola.MotorolaBinaryXml", "Motorola.TextMessageProtocol"]

mutual
/-- The value for the part `v` of an object whose number is `parent` and whose `_root` is `root`, and the objects that are made
for it, in order, if the next one has the number `b`: objects of the same file have `parent` as `_parent` and the same `_root`;
objects of other files have no `_parent`, and are their own `_root`. -/
def place (io parent root : Val) (b : Nat) : PyVal → Val × List Obj
  | .struct cls attrs =>
    if cls ∈ fileClasses then
      let r := placeAttrs io (.pv .none) (.obj b) b (b + 1) attrs
      (.obj b, ⟨cls, r.1⟩ :: r.2)
    else
      let r := placeAttrs io parent root b (b + 1) attrs
      (.obj b, ⟨cls, r.1⟩ :: r.2)
  | .list items =>
    let r := placeItems io parent root b items
    (.list r.1, r.2)
  | v => (.pv v, [])
/-- The elements of a list, likewise. -/
def placeItems (io parent root : Val) (b : Nat) : List PyVal → List Val × List Obj
  | [] => ([], [])
  | v :: rest =>
    let r := place io parent root b v
    let rs := placeItems io parent root (b + r.2.length) rest
    (r.1 :: rs.1, r.2 ++ rs.2)
/-- The attributes of the object with the number `self`. -/
def placeAttrs (io parent root : Val) (self b : Nat) : List (String × PyVal) → List (String × Val) × List Obj
  | [] => ([], [])
  | (x, v) :: rest =>
    let r :=
      if x = "_io" then (io, []) else if x = "_parent" then (parent, []) else if x = "_root" then (root, [])
      else place io (.obj self) root b v
    let rs := placeAttrs io parent root self (b + r.2.length) rest
    ((x, r.1) :: rs.1, r.2 ++ rs.2)
end

/-- The object `v` made with the given `_parent` and `_root`. -/
def placeObj (io parent root : Val) (b : Nat) : PyVal → List Obj
  | .struct cls attrs =>
    let r := placeAttrs io parent root b (b + 1) attrs
    ⟨cls, r.1⟩ :: r.2
  | v => (place io parent root b v).2

/-- `_root if _root else self` -/
def rootOf (root : Val) (self : Nat) : Val := if truthy root then root else .obj self

mutual
/-- The number of objects in a tree of objects. -/
def objects : PyVal → Nat
  | .struct _ attrs => objectsIn attrs + 1
  | .list items => objectsOf items
  | _ => 0
/-- In the elements of a list. -/
def objectsOf : List PyVal → Nat
  | [] => 0
  | v :: rest => objects v + objectsOf rest
/-- In the attributes of an object. -/
def objectsIn : List (String × PyVal) → Nat
  | [] => 0
  | (x, v) :: rest => (if x = "_io" ∨ x = "_parent" ∨ x = "_root" then 0 else objects v) + objectsIn rest
end

mutual
theorem length_place (io parent root : Val) (b : Nat) (v : PyVal) : (place io parent root b v).2.length = objects v := by
  cases v with
  | struct c attrs =>
    rw [place, objects]
    split
    · simp [length_placeAttrs]
    · simp [length_placeAttrs]
  | list items =>
    rw [place, objects]
    exact length_placeItems _ _ _ _ _
  | _ => rw [place, objects] <;> simp
theorem length_placeItems (io parent root : Val) (b : Nat) (l : List PyVal) :
    (placeItems io parent root b l).2.length = objectsOf l := by
  cases l with
  | nil => rw [placeItems, objectsOf]; rfl
  | cons v rest =>
    rw [placeItems, objectsOf, List.length_append, length_place, length_placeItems]
theorem length_placeAttrs (io parent root : Val) (self b : Nat) (l : List (String × PyVal)) :
    (placeAttrs io parent root self b l).2.length = objectsIn l := by
  match l with
  | [] => rw [placeAttrs, objectsIn]; rfl
  | (x, v) :: rest =>
    rw [placeAttrs, objectsIn, List.length_append, length_placeAttrs]
    congr 1
    by_cases h1 : x = "_io"
    · rw [if_pos h1, if_pos (.inl h1)]; rfl
    · by_cases h2 : x = "_parent"
      · rw [if_neg h1, if_pos h2, if_pos (.inr (.inl h2))]; rfl
      · by_cases h3 : x = "_root"
        · rw [if_neg h1, if_neg h2, if_pos h3, if_pos (.inr (.inr h3))]; rfl
        · rw [if_neg h1, if_neg h2, if_neg h3, if_neg (by simp [h1, h2, h3]), length_place]
end

theorem length_placeObj (io parent root : Val) (b : Nat) (v : PyVal) :
    (placeObj io parent root b v).length = objects v := by
  cases v with
  | struct c l => rw [placeObj, objects, List.length_cons, length_placeAttrs]
  | _ => rw [placeObj, length_place] <;> simp

end Dmr.Py
