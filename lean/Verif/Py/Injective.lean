import Verif.Model.Tools.PyVal
import Verif.Enum
/-
For Verif/Py/Shown (generated): an object of a model can be told from its attributes.
-/

set_option autoImplicit false

namespace Dmr.Py.Shown

theorem object_class {c c' : String} {l l' : List (List (String × PyVal))} (h : PyVal.object c l = PyVal.object c' l') : c = c' := by
  unfold PyVal.object at h
  injection h

theorem object_attrs {c c' : String} {l l' : List (List (String × PyVal))} (h : PyVal.object c l = PyVal.object c' l') : l.flatten = l'.flatten := by
  unfold PyVal.object at h
  injection h with _ h
  exact List.append_cancel_left h

theorem attr {n : String} {v w : PyVal} {l m : List (List (String × PyVal))} (h : (PyVal.attr n v :: l).flatten = (PyVal.attr n w :: m).flatten) :
    v = w ∧ l.flatten = m.flatten := by
  simpa [PyVal.attr] using h

/-- No attribute of that name. -/
def Free (n : String) (l : List (List (String × PyVal))) : Prop := ∀ a ∈ l.flatten, a.1 ≠ n

theorem free_nil (n : String) : Free n [] := by simp [Free]

theorem free_attr {n m : String} {v : PyVal} {l : List (List (String × PyVal))} (h : m ≠ n) (hl : Free n l) : Free n (PyVal.attr m v :: l) := by
  intro a ha
  rw [List.flatten_cons, List.mem_append] at ha
  rcases ha with ha | ha
  · rw [List.mem_singleton.1 ha]; exact h
  · exact hl a ha

theorem free_opt {n m : String} {v : Option PyVal} {l : List (List (String × PyVal))} (h : m ≠ n) (hl : Free n l) : Free n (PyVal.optAttr m v :: l) := by
  intro a ha
  rw [List.flatten_cons, List.mem_append] at ha
  rcases ha with ha | ha
  · cases v with
    | none => cases ha
    | some v => rw [List.mem_singleton.1 ha]; exact h
  · exact hl a ha

theorem opt {n : String} {v w : Option PyVal} {l m : List (List (String × PyVal))}
    (h : (PyVal.optAttr n v :: l).flatten = (PyVal.optAttr n w :: m).flatten) (hl : Free n l) (hm : Free n m) : v = w ∧ l.flatten = m.flatten := by
  rw [List.flatten_cons, List.flatten_cons] at h
  cases v with
  | none =>
    cases w with
    | none => exact ⟨rfl, h⟩
    | some w =>
      change l.flatten = (n, w) :: m.flatten at h
      exact absurd rfl (hl (n, w) (by rw [h]; exact List.mem_cons_self))
  | some v =>
    cases w with
    | none =>
      change (n, v) :: l.flatten = m.flatten at h
      exact absurd rfl (hm (n, v) (by rw [← h]; exact List.mem_cons_self))
    | some w =>
      change (n, v) :: l.flatten = (n, w) :: m.flatten at h
      injection h with h1 h2
      injection h1 with _ h1
      exact ⟨congrArg some h1, h2⟩

/-- No attribute of that name: all that are there have others. -/
macro "names" : tactic => `(tactic| ((repeat first | refine free_attr (by decide) ?_ | refine free_opt (by decide) ?_); exact free_nil _))

theorem nat {a b : Nat} (h : PyVal.int (Int.ofNat a) = PyVal.int (Int.ofNat b)) : a = b := by injection h with h; injection h
theorem int {a b : Int} (h : PyVal.int a = PyVal.int b) : a = b := by injection h
theorem bool {a b : Bool} (h : PyVal.bool a = PyVal.bool b) : a = b := by injection h
theorem bytes {a b : Bytes} (h : PyVal.bytes a = PyVal.bytes b) : a = b := by injection h
theorem str {a b : PyStr} (h : PyVal.str a = PyVal.str b) : a = b := by injection h

theorem enum {E : Type} [PyEnum E] [LawfulEnum E] {c : String} : ∀ {a b : EnumVal E}, EnumVal.toPy c a = EnumVal.toPy c b → a = b
  | .known a, .known b, h => by
    unfold EnumVal.toPy at h
    injection h with _ h
    rw [PyEnum.value_inj h]
  | .raw a, .raw b, h => by
    unfold EnumVal.toPy at h
    injection h with h
    injection h with h
    rw [h]
  | .known a, .raw b, h => by unfold EnumVal.toPy at h; cases h
  | .raw a, .known b, h => by unfold EnumVal.toPy at h; cases h

theorem list {α : Type} {f : α → PyVal} (hf : ∀ {x y}, f x = f y → x = y) {l m : List α} (h : PyVal.list (l.map f) = PyVal.list (m.map f)) : l = m := by
  injection h with h
  exact List.map_injective_iff.2 (fun _ _ => hf) h

theorem option {α : Type} {f : α → PyVal} (hf : ∀ {x y}, f x = f y → x = y) {l m : Option α} (h : l.map f = m.map f) : l = m :=
  Option.map_injective (fun _ _ => hf) h

end Dmr.Py.Shown
