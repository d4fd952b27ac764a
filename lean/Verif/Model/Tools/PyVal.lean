import Verif.Runtime
/-
Python values as far as okdmr/kaitai/tools/*.py can see them.
-/

namespace Dmr

/-- Python values. `struct` is an instance of a KaitaiStruct class with its `__dict__` in insertion order. Objects are
modelled as trees: the back references `_parent` and `_root` that every object has, and which make the real object graph
cyclic, are the opaque `backref` (the tools drop them without looking at them), and the stream `_io` is the opaque
`stream`. -/
inductive PyVal where
  | none
  | bool (b : Bool)
  | int (i : Int)
  | bytes (b : Bytes)
  | str (s : PyStr)
  /-- A member of the enumeration `cls`, identified by its value. -/
  | enum (cls : String) (value : Nat)
  | stream
  | backref
  | list (items : List PyVal)
  | dict (items : List (String × PyVal))
  | struct (cls : String) (attrs : List (String × PyVal))

/-- A resolved enumeration attribute: the member, or the number itself if it has none. -/
def EnumVal.toPy (cls : String) [PyEnum E] : EnumVal E → PyVal
  | .known e => .enum cls (PyEnum.value e)
  | .raw v => .int v

/-- An attribute that is always assigned. -/
def PyVal.attr (name : String) (v : PyVal) : List (String × PyVal) := [(name, v)]

/-- An attribute that is assigned only on some paths: absent from `__dict__` otherwise. -/
def PyVal.optAttr (name : String) (v : Option PyVal) : List (String × PyVal) :=
  match v with
  | some v => [(name, v)]
  | .none => []

/-- An instance of `cls`: the constructors (e.g. okdmr/kaitai/hytera/radio_ip.py:14-18) assign `_io`, `_parent` and `_root`
before `_read` assigns the attributes. -/
def PyVal.object (cls : String) (attrs : List (List (String × PyVal))) : PyVal :=
  .struct cls ([("_io", .stream), ("_parent", .backref), ("_root", .backref)] ++ attrs.flatten)

end Dmr
