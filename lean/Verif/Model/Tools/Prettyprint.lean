import Verif.Model.Tools.PyVal
/-
Model of okdmr/kaitai/tools/prettyprint.py (hand-written).
-/

namespace Dmr.Tools

/-- okdmr/kaitai/tools/prettyprint.py:27 the attribute names that are dropped. -/
def hiddenAttributes : List String := ["_io", "_parent", "_root", "_debug"]

mutual
/-- okdmr/kaitai/tools/prettyprint.py:13-17 and 30-34 the conditional expression for one value: `_prettyprint(v)` if it is a
KaitaiStruct, `_array_prettyprint(v)` if it is a list, `v` itself otherwise. -/
def prettyValue : PyVal → PyVal
  | .struct _ attrs => .dict (prettyAttrs attrs)
  | .list items => .list (prettyItems items)
  | .none => .none
  | .bool b => .bool b
  | .int i => .int i
  | .bytes b => .bytes b
  | .str s => .str s
  | .enum c v => .enum c v
  | .stream => .stream
  | .backref => .backref
  | .dict items => .dict items
/-- okdmr/kaitai/tools/prettyprint.py:10-20 `_array_prettyprint(data)`. -/
def prettyItems : List PyVal → List PyVal
  | [] => []
  | x :: xs => prettyValue x :: prettyItems xs
/-- okdmr/kaitai/tools/prettyprint.py:23-36 the two dictionary comprehensions of `_prettyprint(data)` over
`data.__dict__.items()`: the acceptable items, converted (the model does both in one pass over the items). -/
def prettyAttrs : List (String × PyVal) → List (String × PyVal)
  | [] => []
  | (key, value) :: rest =>
    if hiddenAttributes.contains key then prettyAttrs rest else (key, prettyValue value) :: prettyAttrs rest
end

/-- okdmr/kaitai/tools/prettyprint.py:6-7 `prettyprint(data)`: what is handed to `pprint.pprint` (the standard library's
formatting of it is not modelled). An object without `__dict__` raises AttributeError. -/
def prettyprint : PyVal → Except PyErr PyVal
  | .struct _ attrs => .ok (.dict (prettyAttrs attrs))
  | _ => .error .attribute

end Dmr.Tools
