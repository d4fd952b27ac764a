import Verif.Py.Spec
/-
A tree of objects lies in the memory without anything else (Verif/Py/Place).
-/

set_option autoImplicit false

namespace Dmr.Py

theorem held_append (a b : List Obj) : held (a ++ b) = held a + held b := by simp [held]

theorem held_cons (o : Obj) (l : List Obj) : held (o :: l) = o.held + held l := by simp [held]

theorem held_nil : held [] = 0 := rfl

theorem Obj.held_cons (c x : String) (v : Val) (l : List (String × Val)) : (Obj.mk c ((x, v) :: l)).held = v.amount + (Obj.mk c l).held := by
  simp [Obj.held]

mutual
theorem held_place {io parent root : Val} (h1 : io.amount = 0) (h2 : parent.amount = 0) (h3 : root.amount = 0) (b : Nat) (v : PyVal) :
    (place io parent root b v).1.amount + held (place io parent root b v).2 ≤ v.amount := by
  cases v with
  | struct c attrs =>
    rw [place, PyVal.amount]
    split
    · simpa [Val.amount, held_cons] using held_placeAttrs c h1 rfl rfl b (b + 1) attrs
    · simpa [Val.amount, held_cons] using held_placeAttrs c h1 h2 h3 b (b + 1) attrs
  | list items =>
    rw [place, PyVal.amount]
    simpa [Val.amount] using held_placeItems h1 h2 h3 b items
  | _ => rw [place] <;> simp [Val.amount, held_nil]
theorem held_placeItems {io parent root : Val} (h1 : io.amount = 0) (h2 : parent.amount = 0) (h3 : root.amount = 0) (b : Nat) (l : List PyVal) :
    amountOf (placeItems io parent root b l).1 + held (placeItems io parent root b l).2 ≤ PyVal.amountItems l := by
  cases l with
  | nil => rw [placeItems]; simp [amountOf, held_nil]
  | cons v rest =>
    have a := held_place h1 h2 h3 b v
    have c := held_placeItems h1 h2 h3 (b + (place io parent root b v).2.length) rest
    rw [placeItems]
    simp only [amountOf, held_append, PyVal.amountItems]
    omega
theorem held_placeAttrs {io parent root : Val} (cls : String) (h1 : io.amount = 0) (h2 : parent.amount = 0) (h3 : root.amount = 0) (self b : Nat)
    (l : List (String × PyVal)) :
    (Obj.mk cls (placeAttrs io parent root self b l).1).held + held (placeAttrs io parent root self b l).2 ≤ PyVal.amountAttrs l := by
  match l with
  | [] => rw [placeAttrs]; simp [Obj.held, held_nil]
  | (x, v) :: rest =>
    have c := fun n => held_placeAttrs cls h1 h2 h3 self n rest
    rw [placeAttrs, PyVal.amountAttrs]
    dsimp only
    rw [Obj.held_cons, held_append]
    split
    · have := c b
      simp only [List.length_nil, Nat.add_zero, held_nil, h1] at this ⊢
      omega
    · split
      · have := c b
        simp only [List.length_nil, Nat.add_zero, held_nil, h2] at this ⊢
        omega
      · split
        · have := c b
          simp only [List.length_nil, Nat.add_zero, held_nil, h3] at this ⊢
          omega
        · have a := held_place h1 (parent := .obj self) rfl h3 b v
          have := c (b + (place io (.obj self) root b v).2.length)
          omega
end

theorem held_placeObj {io parent root : Val} (h1 : io.amount = 0) (h2 : parent.amount = 0) (h3 : root.amount = 0) {b : Nat} (v : PyVal) :
    held (placeObj io parent root b v) ≤ v.amount := by
  cases v with
  | struct c l =>
    rw [placeObj, PyVal.amount, held_cons]
    exact held_placeAttrs c h1 h2 h3 b (b + 1) l
  | _ =>
    rw [placeObj]
    · exact Nat.le_trans (Nat.le_add_left _ _) (held_place h1 h2 h3 b _)
    · simp

end Dmr.Py
