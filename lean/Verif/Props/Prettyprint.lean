import Mathlib.Data.List.Forall2
import Verif.Model.Tools.Prettyprint
import Verif.Model.Tools.PyView
import Verif.Model.Lazy
/-
Property C45: the structure of what `prettyprint` prints.
-/

namespace Dmr.Tools

/-! ### Specification -/

/-- The items of `__dict__` that are shown: all except four, in order. -/
def shownItems (attrs : List (String × PyVal)) : List (String × PyVal) :=
  attrs.filter fun a => a.1 ≠ "_io" ∧ a.1 ≠ "_parent" ∧ a.1 ≠ "_root" ∧ a.1 ≠ "_debug"

/-- `Printed v w`: the value `v` is shown as `w`. An object is shown as the dictionary of its shown attributes, a list as a
list, to any depth; anything else is shown as it is. -/
inductive Printed : PyVal → PyVal → Prop where
  | object {cls : String} {attrs : List (String × PyVal)} {values : List PyVal} :
      List.Forall₂ Printed ((shownItems attrs).map Prod.snd) values →
      Printed (.struct cls attrs) (.dict (((shownItems attrs).map Prod.fst).zip values))
  | list {items items' : List PyVal} : List.Forall₂ Printed items items' → Printed (.list items) (.list items')
  | other {v : PyVal} : (∀ cls attrs, v ≠ .struct cls attrs) → (∀ items, v ≠ .list items) → Printed v v

mutual
/-- No protocol object occurs in the value: not as the value itself, and not in its lists and dictionaries. -/
def noObject : PyVal → Prop
  | .struct _ _ => False
  | .list items => noObjectIn items
  | .dict items => noObjectInValues items
  | _ => True
/-- No protocol object occurs in the members of a list. -/
def noObjectIn : List PyVal → Prop
  | [] => True
  | v :: vs => noObject v ∧ noObjectIn vs
/-- No protocol object occurs in the values of a dictionary. -/
def noObjectInValues : List (String × PyVal) → Prop
  | [] => True
  | (_, v) :: vs => noObject v ∧ noObjectInValues vs
end

mutual
/-- No dictionary occurs in the value: not as the value itself, and not in its lists and objects. -/
def noDict : PyVal → Prop
  | .dict _ => False
  | .list items => noDictIn items
  | .struct _ attrs => noDictInValues attrs
  | _ => True
/-- No dictionary occurs in the members of a list. -/
def noDictIn : List PyVal → Prop
  | [] => True
  | v :: vs => noDict v ∧ noDictIn vs
/-- No dictionary occurs in the values of attributes. -/
def noDictInValues : List (String × PyVal) → Prop
  | [] => True
  | (_, v) :: vs => noDict v ∧ noDictInValues vs
end

/-! ### Proofs -/

theorem hidden_iff (k : String) :
    hiddenAttributes.contains k = true ↔ ¬(k ≠ "_io" ∧ k ≠ "_parent" ∧ k ≠ "_root" ∧ k ≠ "_debug") := by
  simp only [hiddenAttributes, List.contains_iff_mem, List.mem_cons, List.not_mem_nil, or_false]
  tauto

theorem prettyItems_eq : ∀ (l : List PyVal), prettyItems l = l.map prettyValue
  | [] => rfl
  | v :: vs => by rw [prettyItems, prettyItems_eq vs]; rfl

theorem prettyAttrs_eq : ∀ (l : List (String × PyVal)),
    prettyAttrs l = (shownItems l).map fun a => (a.1, prettyValue a.2)
  | [] => rfl
  | (k, v) :: rest => by
    unfold shownItems at *
    rw [prettyAttrs, prettyAttrs_eq rest, List.filter_cons]
    by_cases h : hiddenAttributes.contains k = true
    · have h' := (hidden_iff k).1 h
      rw [if_pos h, if_neg (by simpa using h')]; rfl
    · have h' := (not_congr (hidden_iff k)).1 h
      rw [if_neg h, if_pos (by simpa using h')]; rfl

theorem prettyAttrs_zip (l : List (String × PyVal)) :
    prettyAttrs l = ((shownItems l).map Prod.fst).zip (((shownItems l).map Prod.snd).map prettyValue) := by
  rw [prettyAttrs_eq]
  induction shownItems l with
  | nil => rfl
  | cons a as ih => simp [ih]

mutual
theorem printed_pretty : ∀ v, Printed v (prettyValue v)
  | .struct c attrs => by
    rw [prettyValue, prettyAttrs_zip]
    exact .object (by rw [List.forall₂_map_right_iff]; exact List.forall₂_same.2 fun x hx => by
                       obtain ⟨a, ha, rfl⟩ := List.mem_map.1 hx
                       exact printed_values attrs a (List.mem_filter.1 ha).1)
  | .list items => by
    rw [prettyValue, prettyItems_eq]
    exact .list (by rw [List.forall₂_map_right_iff]; exact List.forall₂_same.2 fun x hx => printed_items items x hx)
  | .none => .other (by simp) (by simp)
  | .bool _ => .other (by simp) (by simp)
  | .int _ => .other (by simp) (by simp)
  | .bytes _ => .other (by simp) (by simp)
  | .str _ => .other (by simp) (by simp)
  | .enum _ _ => .other (by simp) (by simp)
  | .stream => .other (by simp) (by simp)
  | .backref => .other (by simp) (by simp)
  | .dict _ => .other (by simp) (by simp)
theorem printed_items : ∀ (l : List PyVal) (v : PyVal), v ∈ l → Printed v (prettyValue v)
  | [], _, h => by simp at h
  | w :: ws, v, h => by
    rcases List.mem_cons.1 h with e | h
    · exact e ▸ printed_pretty w
    · exact printed_items ws v h
theorem printed_values : ∀ (l : List (String × PyVal)) (a : String × PyVal), a ∈ l → Printed a.2 (prettyValue a.2)
  | [], _, h => by simp at h
  | (k, w) :: ws, a, h => by
    rcases List.mem_cons.1 h with rfl | h
    · exact printed_pretty w
    · exact printed_values ws a h
end

theorem forall₂_eq_map {f : α → β} {R : α → β → Prop} : ∀ {l : List α} {l' : List β},
    List.Forall₂ R l l' → (∀ a ∈ l, ∀ b, R a b → b = f a) → l' = l.map f
  | [], _, .nil, _ => rfl
  | a :: as, _, .cons h t, hf => by
    rw [List.map_cons, ← hf a (by simp) _ h, ← forall₂_eq_map t fun x hx => hf x (by simp [hx])]

mutual
theorem printed_unique : ∀ (v w : PyVal), Printed v w → w = prettyValue v
  | .struct c attrs, w, h => by
    cases h with
    | object h =>
      rw [prettyValue, prettyAttrs_zip, ← forall₂_eq_map h fun x hx b hb => by
        obtain ⟨a, ha, rfl⟩ := List.mem_map.1 hx
        exact unique_values attrs a (List.mem_filter.1 ha).1 b hb]
    | other h _ => exact absurd rfl (h _ _)
  | .list items, w, h => by
    cases h with
    | list h =>
      rw [prettyValue, prettyItems_eq, ← forall₂_eq_map h fun x hx b hb => unique_items items x hx b hb]
    | other _ h => exact absurd rfl (h _)
  | .none, w, h => by cases h; rfl
  | .bool _, w, h => by cases h; rfl
  | .int _, w, h => by cases h; rfl
  | .bytes _, w, h => by cases h; rfl
  | .str _, w, h => by cases h; rfl
  | .enum _ _, w, h => by cases h; rfl
  | .stream, w, h => by cases h; rfl
  | .backref, w, h => by cases h; rfl
  | .dict _, w, h => by cases h; rfl
theorem unique_items : ∀ (l : List PyVal) (v : PyVal), v ∈ l → ∀ w, Printed v w → w = prettyValue v
  | [], _, h => by simp at h
  | u :: us, v, h => by
    rcases List.mem_cons.1 h with e | h
    · exact e ▸ printed_unique u
    · exact unique_items us v h
theorem unique_values : ∀ (l : List (String × PyVal)) (a : String × PyVal), a ∈ l → ∀ w, Printed a.2 w → w = prettyValue a.2
  | [], _, h => by simp at h
  | (k, u) :: us, a, h => by
    rcases List.mem_cons.1 h with rfl | h
    · exact printed_unique u
    · exact unique_values us a h
end

mutual
theorem noObject_pretty : ∀ v, noDict v → noObject (prettyValue v)
  | .struct _ attrs, h => by rw [prettyValue, noObject]; exact noObject_attrs attrs (by simpa [noDict] using h)
  | .list items, h => by rw [prettyValue, noObject]; exact noObject_items items (by simpa [noDict] using h)
  | .none, _ => by simp [prettyValue, noObject]
  | .bool _, _ => by simp [prettyValue, noObject]
  | .int _, _ => by simp [prettyValue, noObject]
  | .bytes _, _ => by simp [prettyValue, noObject]
  | .str _, _ => by simp [prettyValue, noObject]
  | .enum _ _, _ => by simp [prettyValue, noObject]
  | .stream, _ => by simp [prettyValue, noObject]
  | .backref, _ => by simp [prettyValue, noObject]
  | .dict _, h => by simp [noDict] at h
theorem noObject_items : ∀ l, noDictIn l → noObjectIn (prettyItems l)
  | [], _ => by simp [prettyItems, noObjectIn]
  | v :: vs, h => by
    rw [noDictIn] at h
    rw [prettyItems, noObjectIn]
    exact ⟨noObject_pretty v h.1, noObject_items vs h.2⟩
theorem noObject_attrs : ∀ l, noDictInValues l → noObjectInValues (prettyAttrs l)
  | [], _ => by simp [prettyAttrs, noObjectInValues]
  | (k, v) :: vs, h => by
    rw [noDictInValues] at h
    rw [prettyAttrs]
    split
    · exact noObject_attrs vs h.2
    · rw [noObjectInValues]; exact ⟨noObject_pretty v h.1, noObject_attrs vs h.2⟩
end

theorem Printed.keys {cls : String} {attrs items : List (String × PyVal)}
    (h : Printed (.struct cls attrs) (.dict items)) : items.map Prod.fst = (shownItems attrs).map Prod.fst := by
  have h' := printed_unique _ _ h
  rw [prettyValue, PyVal.dict.injEq, prettyAttrs_eq] at h'
  rw [h', List.map_map]; rfl

/-! ### C45 -/

/-- C45: what is printed for an object is the one value the specification allows, a dictionary; its keys are exactly the
attributes of the object except `_io`, `_parent`, `_root` and `_debug`, in assignment order. -/
theorem C45_structure (cls : String) (attrs : List (String × PyVal)) :
    ∃ items, prettyprint (.struct cls attrs) = .ok (.dict items) ∧
      (∀ w, Printed (.struct cls attrs) w ↔ w = .dict items) ∧
      items.map Prod.fst = (attrs.map Prod.fst).filter fun k => k ∉ ["_io", "_parent", "_root", "_debug"] := by
  refine ⟨prettyAttrs attrs, rfl, fun w => ⟨fun h => ?_, fun h => ?_⟩, ?_⟩
  · have := printed_unique _ _ h
    rwa [prettyValue] at this
  · subst h
    have := printed_pretty (.struct cls attrs)
    rwa [prettyValue] at this
  · rw [prettyAttrs_eq, List.map_map, shownItems, List.filter_map]
    simp only [Function.comp_def, List.mem_cons, List.not_mem_nil, or_false, not_or]

/-- C45: no protocol object remains anywhere in the dictionaries and lists that are printed (`noDict` holds of every object
of the library: `C45_library`). -/
theorem C45_no_object (cls : String) (attrs : List (String × PyVal)) (h : noDict (.struct cls attrs)) :
    ∃ items, prettyprint (.struct cls attrs) = .ok (.dict items) ∧ noObject (.dict items) := by
  refine ⟨prettyAttrs attrs, rfl, ?_⟩
  have := noObject_pretty _ h
  rwa [prettyValue] at this

/-- An object with an object in it, in a list. -/
example := C45_no_object "Outer" [("_io", .stream), ("n", .int 1), ("items", .list [.struct "Inner" [("a", .bytes [1, 2])]])]
  (by simp [noDict, noDictInValues, noDictIn])

/-- C45: only objects can be printed. -/
theorem C45_no_dict (v : PyVal) (h : ∀ cls attrs, v ≠ .struct cls attrs) : prettyprint v = .error .attribute := by
  cases v <;> first | rfl | exact absurd rfl (h _ _)

example : prettyprint (.int 7) = .error .attribute := C45_no_dict _ (fun _ _ h => nomatch h)

end Dmr.Tools
