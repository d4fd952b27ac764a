import Verif.Ksy.Schema
import Verif.Model.Tools.PyView
import Verif.Enums
/-
The comparison between what the schemas say (Verif/Ksy) and what the Python decoders build (Verif/Model).
-/

namespace Dmr.Ksy

/-- Attribute names that begin with an underscore: the back references and caches of the Python objects. -/
def hidden (n : String) : Bool := n.toList.head? == some '_'

mutual
/-- An object with the attributes that the schema speaks about only: not those with an underscore. -/
def view : PyVal → PyVal
  | .struct c attrs => .struct c (viewAttrs attrs)
  | .list items => .list (viewItems items)
  | .none => .none
  | .bool b => .bool b
  | .int i => .int i
  | .bytes b => .bytes b
  | .str s => .str s
  | .enum c v => .enum c v
  | .stream => .stream
  | .backref => .backref
  | .dict items => .dict items
/-- `view` of every element. -/
def viewItems : List PyVal → List PyVal
  | [] => []
  | x :: xs => view x :: viewItems xs
/-- The attributes without an underscore. -/
def viewAttrs : List (String × PyVal) → List (String × PyVal)
  | [] => []
  | (n, v) :: rest => if hidden n then viewAttrs rest else (n, view v) :: viewAttrs rest
end

theorem viewAttrs_append (a b : List (String × PyVal)) : viewAttrs (a ++ b) = viewAttrs a ++ viewAttrs b := by
  induction a with
  | nil => rfl
  | cons x xs ih =>
    obtain ⟨n, v⟩ := x
    rw [List.cons_append, viewAttrs, viewAttrs, ih]
    split <;> rfl

theorem viewAttrs_attr (n : String) (v : PyVal) (h : hidden n = false) :
    viewAttrs (PyVal.attr n v) = PyVal.optAttr n (some (view v)) := by
  rw [PyVal.attr, viewAttrs, if_neg (by simp [h])]; rfl

theorem viewAttrs_attr_hidden (n : String) (v : PyVal) (h : hidden n = true) : viewAttrs (PyVal.attr n v) = [] := by
  rw [PyVal.attr, viewAttrs, if_pos h]; rfl

theorem viewAttrs_optAttr (n : String) (v : Option PyVal) (h : hidden n = false) :
    viewAttrs (PyVal.optAttr n v) = PyVal.optAttr n (v.map view) := by
  cases v with
  | none => rfl
  | some v => exact viewAttrs_attr n v h

theorem viewAttrs_optAttr_hidden (n : String) (v : Option PyVal) (h : hidden n = true) :
    viewAttrs (PyVal.optAttr n v) = [] := by
  cases v with
  | none => rfl
  | some v => exact viewAttrs_attr_hidden n v h

theorem view_object (c : String) (ls : List (List (String × PyVal))) :
    view (.object c ls) = .struct c (viewAttrs ls.flatten) := by
  rw [PyVal.object, view, viewAttrs_append]
  congr 1

theorem viewItems_eq (l : List PyVal) : viewItems l = l.map view := by
  induction l with
  | nil => rfl
  | cons x xs ih => rw [viewItems, ih]; rfl

@[simp] theorem view_enum {E : Type} [PyEnum E] (c : String) (v : EnumVal E) : view (EnumVal.toPy c v) = EnumVal.toPy c v := by
  cases v <;> rfl

/-! ### Readers -/

theorem rd_bind_assoc (r : Rd α) (f : α → Rd β) (g : β → Rd γ) : (r >>= f) >>= g = r >>= fun x => f x >>= g := by
  funext s
  show Rd.bind (Rd.bind r f) g s = Rd.bind r (fun x => Rd.bind (f x) g) s
  unfold Rd.bind
  cases h : r s with
  | mk e s' => cases e <;> simp

theorem rd_pure_bind (x : α) (f : α → Rd β) : (pure x : Rd α) >>= f = f x := rfl

theorem rd_bind_pure (r : Rd α) : r >>= pure = r := by
  funext s
  show Rd.bind r Rd.pure s = r s
  unfold Rd.bind Rd.pure
  cases h : r s with
  | mk e s' => cases e <;> simp

instance : LawfulMonad Rd := LawfulMonad.mk'
  (id_map := fun r => rd_bind_pure r)
  (pure_bind := fun x f => rfl)
  (bind_assoc := fun r f g => rd_bind_assoc r f g)

theorem rd_throw_bind (e : PyErr) (f : α → Rd β) : (Rd.throw e : Rd α) >>= f = Rd.throw e := rfl

theorem rd_bind_congr {r : Rd α} {f g : α → Rd β} (h : ∀ x, f x = g x) : r >>= f = r >>= g := by rw [funext h]

theorem readBytesInt_ofNat (n : Nat) : readBytesInt (Int.ofNat n) = readBytes n := by
  unfold readBytesInt readBytes
  have : ¬ (Int.ofNat n < 0) := by simp
  rw [if_neg this]; rfl

theorem readBytesInt_lit (n : Nat) : readBytesInt (@OfNat.ofNat Int n instOfNat) = readBytes (OfNat.ofNat n) :=
  readBytesInt_ofNat n

/-- `if c: attr = r`. -/
theorem if_optionally (c : Bool) (r : Rd α) (f : α → β) :
    (if c = true then (do let x ← r; return some (f x)) else return none) = (Option.map f) <$> optionally c r := by
  cases c with
  | true => simp [optionally]
  | false => simp [optionally]

/-- An enumeration of the schema has the same values as that of the Python program. -/
theorem resolve_eq {E : Type} [PyEnum E] (d : EnumDef)
    (h : d.members.map (·.1) ⊆ (PyEnum.all (E := E)).map PyEnum.value ∧ (PyEnum.all (E := E)).map PyEnum.value ⊆ d.members.map (·.1))
    (v : Nat) : d.resolve v = EnumVal.toPy d.name (resolveEnum E v) := by
  unfold EnumDef.resolve resolveEnum
  cases hf : (PyEnum.all (E := E)).find? (fun e => PyEnum.value e == v) with
  | some e =>
    have h1 := List.find?_some hf
    have h2 := List.mem_of_find?_eq_some hf
    simp only [beq_iff_eq] at h1
    have h3 := h.2 (List.mem_map.2 ⟨e, h2, h1⟩)
    obtain ⟨m, hm, hv⟩ := List.mem_map.1 h3
    rw [if_pos (List.any_eq_true.2 ⟨m, hm, by simp [hv]⟩)]
    simp [EnumVal.toPy, h1]
  | none =>
    rw [List.find?_eq_none] at hf
    rw [if_neg]
    · rfl
    · intro ha
      obtain ⟨m, hm, hv⟩ := List.any_eq_true.1 ha
      simp only [beq_iff_eq] at hv
      obtain ⟨e, he, hv'⟩ := List.mem_map.1 (h.1 (List.mem_map.2 ⟨m, hm, hv⟩))
      exact hf e he (by simp [hv'])

end Dmr.Ksy
