import Verif.Py.Place
import Verif.Spec.Amount
/-
For Verif/Py/FewLibrary (generated): how many objects there are in a tree.
-/

set_option autoImplicit false

namespace Dmr.Py.Few

/-- The number of objects is at most `c`, and `D` for everything the tree holds. -/
def Few (D c : Nat) (v : PyVal) : Prop := objects v ≤ c + D * v.amount

/-- The same of attributes. -/
def FewIn (D c : Nat) (l : List (String × PyVal)) : Prop := objectsIn l ≤ c + D * PyVal.amountAttrs l

variable {D : Nat}

theorem objectsIn_append : ∀ l m, objectsIn (l ++ m) = objectsIn l + objectsIn m
  | [], m => by simp [objectsIn]
  | (_, v) :: l, m => by simp [objectsIn, objectsIn_append l m, Nat.add_assoc]

theorem amountAttrs_append : ∀ l m, PyVal.amountAttrs (l ++ m) = PyVal.amountAttrs l + PyVal.amountAttrs m
  | [], m => by simp [PyVal.amountAttrs]
  | (_, v) :: l, m => by simp [PyVal.amountAttrs, amountAttrs_append l m, Nat.add_assoc]

theorem object {c : Nat} {cls : String} {l : List (List (String × PyVal))} (h : FewIn D c l.flatten) : Few D (c + 1) (.object cls l) := by
  unfold FewIn at h
  simp only [Few, PyVal.object, objects, PyVal.amount, objectsIn_append, amountAttrs_append, objectsIn, PyVal.amountAttrs]
  simp
  omega

theorem nil : FewIn D 0 (([] : List (List (String × PyVal))).flatten) := by simp [FewIn, objectsIn]

theorem cons {a c : Nat} {x : List (String × PyVal)} {l : List (List (String × PyVal))} (hx : FewIn D a x) (h : FewIn D c l.flatten) :
    FewIn D (a + c) (x :: l).flatten := by
  unfold FewIn at *
  rw [List.flatten_cons, objectsIn_append, amountAttrs_append, Nat.mul_add]
  omega

theorem attr {c : Nat} {k : String} {v : PyVal} (h : Few D c v) : FewIn D c (PyVal.attr k v) := by
  unfold Few at h
  unfold FewIn PyVal.attr
  simp only [objectsIn, PyVal.amountAttrs, Nat.add_zero]
  split <;> omega

theorem opt {c : Nat} {α : Type} {k : String} {o : Option α} {f : α → PyVal} (h : ∀ x, Few D c (f x)) : FewIn D c (PyVal.optAttr k (o.map f)) := by
  cases o with
  | none => simp [FewIn, PyVal.optAttr, objectsIn]
  | some x => exact attr (h x)

theorem opt_plain {k : String} {o : Option PyVal} (h : ∀ x, o = some x → Few D 0 x) : FewIn D 0 (PyVal.optAttr k o) := by
  cases o with
  | none => simp [FewIn, PyVal.optAttr, objectsIn]
  | some x => exact attr (h x rfl)

theorem list {c : Nat} {α : Type} {f : α → PyVal} (hc : c ≤ D) (h : ∀ x, Few D c (f x)) (l : List α) : Few D 0 (.list (l.map f)) := by
  unfold Few
  simp only [objects, PyVal.amount, Nat.zero_add]
  induction l with
  | nil => simp [objectsOf]
  | cons x l ih =>
    have := h x
    unfold Few at this
    simp only [List.map_cons, objectsOf, PyVal.amountItems, Nat.mul_add, Nat.mul_one]
    omega

theorem int (i : Int) : Few D 0 (.int i) := by simp [Few, objects]
theorem bool (b : Bool) : Few D 0 (.bool b) := by simp [Few, objects]
theorem bytes (b : Bytes) : Few D 0 (.bytes b) := by simp [Few, objects]
theorem str (s : PyStr) : Few D 0 (.str s) := by simp [Few, objects]
theorem enum {E : Type} [PyEnum E] (c : String) (v : EnumVal E) : Few D 0 (EnumVal.toPy c v) := by cases v <;> simp [Few, objects, EnumVal.toPy]

theorem more {c c' : Nat} {v : PyVal} (h : Few D c v) (hc : c ≤ c') : Few D c' v := by unfold Few at *; omega

end Dmr.Py.Few
