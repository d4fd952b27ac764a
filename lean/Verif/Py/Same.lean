import Verif.Py.Spec
/-
What `Shows` says does not depend on what else is in the memory, and says all about an object except for `_io`, `_parent` and `_root`.
-/

set_option autoImplicit false

namespace Dmr.Py

theorem getElem?_more {h new : List Obj} {r : Nat} {o : Obj} (e : h[r]? = some o) : (h ++ new)[r]? = some o := by
  rw [List.getElem?_append_left (List.getElem?_eq_some_iff.1 e).1, e]

mutual
theorem Shows.more {h : List Obj} (new : List Obj) : ∀ {x : Val} {v : PyVal}, Shows h x v → Shows (h ++ new) x v
  | _, _, .plain v s l => .plain v s l
  | _, _, .list e => .list (ShowsItems.more new e)
  | _, _, .object a e => .object (getElem?_more a) (ShowsAttrs.more new e)
theorem ShowsItems.more {h : List Obj} (new : List Obj) : ∀ {x : List Val} {v : List PyVal}, ShowsItems h x v → ShowsItems (h ++ new) x v
  | _, _, .nil => .nil
  | _, _, .cons e es => .cons (Shows.more new e) (ShowsItems.more new es)
theorem ShowsAttrs.more {h : List Obj} (new : List Obj) : ∀ {x : List (String × Val)} {v : List (String × PyVal)}, ShowsAttrs h x v → ShowsAttrs (h ++ new) x v
  | _, _, .nil => .nil
  | _, _, .link l es => .link l (ShowsAttrs.more new es)
  | _, _, .cons l e es => .cons l (Shows.more new e) (ShowsAttrs.more new es)
end

mutual
/-- Two values that show one tree show the same trees. -/
theorem Shows.same {h' : List Obj} : ∀ {x' : Val} {v : PyVal}, Shows h' x' v → ∀ {h : List Obj} {x : Val} {w : PyVal}, Shows h x v → Shows h x w → Shows h' x' w
  | _, _, .plain v s l, h, x, w, e1, e2 => by
    cases e1 with
    | plain =>
      cases e2 with
      | plain => exact .plain v s l
    | list => exact absurd rfl (l _)
    | object => exact absurd rfl (s _ _)
  | _, _, .list e, h, x, w, e1, e2 => by
    cases e1 with
    | plain v s l => exact absurd rfl (l _)
    | list e1 =>
      cases e2 with
      | list e2 => exact .list (ShowsItems.same e e1 e2)
  | _, _, .object a e, h, x, w, e1, e2 => by
    cases e1 with
    | plain v s l => exact absurd rfl (s _ _)
    | object a1 e1 =>
      cases e2 with
      | object a2 e2 =>
        rw [a1] at a2
        cases a2
        exact .object a (ShowsAttrs.same e e1 e2)
theorem ShowsItems.same {h' : List Obj} : ∀ {x' : List Val} {v : List PyVal}, ShowsItems h' x' v →
    ∀ {h : List Obj} {x : List Val} {w : List PyVal}, ShowsItems h x v → ShowsItems h x w → ShowsItems h' x' w
  | _, _, .nil, h, x, w, e1, e2 => by cases e1; cases e2; exact .nil
  | _, _, .cons e es, h, x, w, e1, e2 => by
    cases e1 with
    | cons e1 es1 =>
      cases e2 with
      | cons e2 es2 => exact .cons (Shows.same e e1 e2) (ShowsItems.same es es1 es2)
theorem ShowsAttrs.same {h' : List Obj} : ∀ {x' : List (String × Val)} {v : List (String × PyVal)}, ShowsAttrs h' x' v →
    ∀ {h : List Obj} {x : List (String × Val)} {w : List (String × PyVal)}, ShowsAttrs h x v → ShowsAttrs h x w → ShowsAttrs h' x' w
  | _, _, .nil, h, x, w, e1, e2 => by cases e1; cases e2; exact .nil
  | _, _, .link l es, h, x, w, e1, e2 => by
    cases e1 with
    | link l1 es1 =>
      cases e2 with
      | link l2 es2 => exact .link l (ShowsAttrs.same es es1 es2)
      | cons l2 => exact absurd l l2
    | cons l1 => exact absurd l l1
  | _, _, .cons l e es, h, x, w, e1, e2 => by
    cases e1 with
    | link l1 => exact absurd l1 l
    | cons l1 e1 es1 =>
      cases e2 with
      | link l2 => exact absurd l2 l
      | cons l2 e2 es2 => exact .cons l (Shows.same e e1 e2) (ShowsAttrs.same es es1 es2)
end

end Dmr.Py
