import Verif.Model.Tools.PyVal
/-
Specification for C54: how much of what came from outside a Python value holds. Numbers, booleans and enumeration members count
nothing: they have a fixed size in every class.
-/

set_option autoImplicit false

namespace Dmr

mutual
/-- The bytes, characters and list entries in a Python value, at any depth. -/
def PyVal.amount : PyVal → Nat
  | .none => 0
  | .bool _ => 0
  | .int _ => 0
  | .bytes b => b.length
  | .str s => s.length
  | .enum _ _ => 0
  | .stream => 0
  | .backref => 0
  | .list l => PyVal.amountItems l
  | .dict l => PyVal.amountAttrs l
  | .struct _ l => PyVal.amountAttrs l
/-- The entries of a list, and what they hold. -/
def PyVal.amountItems : List PyVal → Nat
  | [] => 0
  | x :: l => 1 + PyVal.amount x + PyVal.amountItems l
/-- What the attributes of an object hold. -/
def PyVal.amountAttrs : List (String × PyVal) → Nat
  | [] => 0
  | (_, x) :: l => PyVal.amount x + PyVal.amountAttrs l
end

end Dmr
