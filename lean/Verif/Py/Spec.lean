import Verif.Py.Place
import Verif.Spec.Amount
import Verif.Py.Source
/-
What is said about running the source of the decoders (Verif/Props/Source).
-/

set_option autoImplicit false

namespace Dmr.Py

mutual
/-- The bytes, characters and list entries in a value, at any depth; what an object or a stream holds is not counted where it is referred to. -/
def Val.amount : Val → Nat
  | .pv v => v.amount
  | .obj _ => 0
  | .io _ => 0
  | .file b => b.length
  | .list l => amountOf l
/-- The elements of a list, and what they hold. -/
def amountOf : List Val → Nat
  | [] => 0
  | v :: l => 1 + v.amount + amountOf l
end

/-- What the attributes of an object hold. -/
def Obj.held (o : Obj) : Nat := (o.attrs.map fun a => a.2.amount).sum

/-- The bytes, characters and list entries in all objects of the memory. -/
def held (heap : List Obj) : Nat := (heap.map Obj.held).sum

/-- The attributes that every object gets from its constructor. -/
def links : List String := ["_io", "_parent", "_root"]

mutual
/-- The value `x`, in the memory `h`, is the tree `v`: objects have the same class and the same attributes, assigned in the same
order, with the same values, except that nothing is said about `_io`, `_parent` and `_root` here. -/
inductive Shows (h : List Obj) : Val → PyVal → Prop
  | plain (v : PyVal) (struct : ∀ cls vs, v ≠ .struct cls vs) (list : ∀ vs, v ≠ .list vs) : Shows h (.pv v) v
  | list {xs : List Val} {vs : List PyVal} (e : ShowsItems h xs vs) : Shows h (.list xs) (.list vs)
  | object {r : Nat} {cls : String} {attrs : List (String × Val)} {vs : List (String × PyVal)} (at_ : h[r]? = some ⟨cls, attrs⟩)
      (e : ShowsAttrs h attrs vs) : Shows h (.obj r) (.struct cls vs)
/-- Item by item. -/
inductive ShowsItems (h : List Obj) : List Val → List PyVal → Prop
  | nil : ShowsItems h [] []
  | cons {x : Val} {v : PyVal} {xs : List Val} {vs : List PyVal} (e : Shows h x v) (es : ShowsItems h xs vs) :
      ShowsItems h (x :: xs) (v :: vs)
/-- Attribute by attribute. -/
inductive ShowsAttrs (h : List Obj) : List (String × Val) → List (String × PyVal) → Prop
  | nil : ShowsAttrs h [] []
  | link {name : String} {x : Val} {v : PyVal} {xs : List (String × Val)} {vs : List (String × PyVal)} (l : name ∈ links)
      (es : ShowsAttrs h xs vs) : ShowsAttrs h ((name, x) :: xs) ((name, v) :: vs)
  | cons {name : String} {x : Val} {v : PyVal} {xs : List (String × Val)} {vs : List (String × PyVal)} (l : name ∉ links)
      (e : Shows h x v) (es : ShowsAttrs h xs vs) : ShowsAttrs h ((name, x) :: xs) ((name, v) :: vs)
end

mutual
/-- The objects that a value is, or that are in the list that it is. -/
def refs : Val → List Nat
  | .obj r => [r]
  | .list l => refsOf l
  | _ => []
/-- In the items of a list. -/
def refsOf : List Val → List Nat
  | [] => []
  | v :: rest => refs v ++ refsOf rest
end

/-- The objects that are values of attributes, or items of lists that are, other than `_io`, `_parent` and `_root`. -/
def partsOf (o : Obj) : List Nat := (o.attrs.filter fun a => a.1 ∉ links).flatMap fun a => refs a.2

/-- The attribute `x` of an object. -/
def Obj.get (o : Obj) (x : String) : Option Val := o.attrs.lookup x

/-- How the objects of the memory `h` refer to each other if all of them come from one call of `from_bytes`. -/
structure Navigable (h : List Obj) : Prop where
  /-- the object that was asked for has no `_parent` and is its own `_root` -/
  top : ∃ o, h[0]? = some o ∧ o.get "_parent" = some (.pv .none) ∧ o.get "_root" = some (.obj 0)
  /-- all objects refer to the stream on which `from_bytes` put the bytes -/
  io : ∀ o ∈ h, o.get "_io" = some (.io 0)
  /-- the `_parent` of a part of an object is that object, and its `_root` is the `_root` of that object; but a part whose class is
  defined in another file has no `_parent`, and is its own `_root` -/
  part : ∀ (r : Nat) (o : Obj), h[r]? = some o → ∀ c ∈ partsOf o, ∃ p, h[c]? = some p ∧
    (if p.cls ∈ fileClasses then p.get "_parent" = some (.pv .none) ∧ p.get "_root" = some (.obj c)
      else p.get "_parent" = some (.obj r) ∧ p.get "_root" = o.get "_root")
  /-- every other object is a part of exactly one object, in one place -/
  once : (h.flatMap partsOf).Perm (List.range' 1 (h.length - 1))

/-- A model of a class: how it reads, and how its objects look. -/
structure Reader where
  Obj : Type
  read : Rd Obj
  toPy : Obj → PyVal

/-- The same if other objects, `old`, were in the memory before, and the object was made from the stream `k`; the new objects do not
refer to old ones. -/
structure NavigableIn (old : List Obj) (k : Nat) (new : List Obj) : Prop where
  top : ∃ o, new[0]? = some o ∧ o.get "_parent" = some (.pv .none) ∧ o.get "_root" = some (.obj old.length)
  io : ∀ o ∈ new, o.get "_io" = some (.io k)
  part : ∀ (r : Nat) (o : Obj), new[r]? = some o → ∀ c ∈ partsOf o, ∃ p, (old ++ new)[c]? = some p ∧
    (if p.cls ∈ fileClasses then p.get "_parent" = some (.pv .none) ∧ p.get "_root" = some (.obj c)
      else p.get "_parent" = some (.obj (old.length + r)) ∧ p.get "_root" = o.get "_root")
  once : (new.flatMap partsOf).Perm (List.range' (old.length + 1) (new.length - 1))

/-- The classes that look at the beginning of the stream, and are used at the beginning of one only. -/
def fromStart : List String := ["Homebrew.Homebrew2015", "Homebrew.Mmdvm2020"]

/-- Running the source of the class gives what the model says, in whatever memory, on whatever stream, wherever it is: the same
exception, with the stream left at the same place; or the same object, with all its parts and no others. Nothing else is changed. What is
made does not depend on `n`, nor on anything but the number of objects, the stream and the model object. -/
def Constructs (name : String) (R : Reader) : Prop :=
  ∃ make : Nat → Nat → R.Obj → List Obj, ∀ (H : List Obj) (S : List Stream) (k : Nat) (s : Stream), S[k]? = some s → (name ∈ fromStart → s.pos = 0) →
    match R.read s with
    | (.error e, s') => ∀ n, 13 ≤ n → ((calls library n).construct name [.io k]).run ⟨H, S⟩ = .raise e ⟨H, S.set k s'⟩
    | (.ok x, s') => (∀ n, 13 ≤ n → ((calls library n).construct name [.io k]).run ⟨H, S⟩ = .ok (.obj H.length) ⟨H ++ make H.length k x, S.set k s'⟩) ∧
        Shows (H ++ make H.length k x) (.obj H.length) (R.toPy x) ∧ NavigableIn H k (make H.length k x) ∧
        (make H.length k x).length = objects (R.toPy x) ∧ held (make H.length k x) ≤ (R.toPy x).amount

/-- Running `from_bytes` of the class gives what the model says: the same exception, with the stream left at the same place; or
the same object, with all its parts. -/
def Agrees (name : String) (R : Reader) : Prop :=
  ∃ make : R.Obj → List Obj, ∀ (b : Bytes),
    match R.read (Stream.new b) with
    | (.error e, s) => ∀ n, 13 ≤ n → fromBytes library n name b = .raise e ⟨[], [s]⟩
    | (.ok x, s) => (∀ n, 13 ≤ n → fromBytes library n name b = .ok (.obj 0) ⟨make x, [s]⟩) ∧ Shows (make x) (.obj 0) (R.toPy x) ∧ Navigable (make x) ∧
        (make x).length = objects (R.toPy x) ∧ held (make x) ≤ (R.toPy x).amount

/-- The class cannot be used on its own: whatever the bytes are, an AttributeError is raised, unless they end before. -/
def Unusable (name : String) : Prop :=
  ∀ (n : Nat) (b : Bytes), 13 ≤ n → ∃ e s, fromBytes library n name b = .raise e ⟨[], [s]⟩ ∧ (e = .attribute ∨ e = .eof)

/-- What holds of every member of a list. -/
def Each {α : Type _} (p : α → Prop) : List α → Prop
  | [] => True
  | a :: l => p a ∧ Each p l

theorem Each.mem {α : Type _} {p : α → Prop} : ∀ {l : List α}, Each p l → ∀ a ∈ l, p a
  | [], _, _, h => absurd h List.not_mem_nil
  | b :: l, e, a, h => by
    rcases List.mem_cons.1 h with rfl | h
    · exact e.1
    · exact Each.mem e.2 a h

theorem Each.append {α : Type _} {p : α → Prop} {l m : List α} (hl : Each p l) (hm : Each p m) : Each p (l ++ m) := by
  induction l with
  | nil => exact hm
  | cons a l ih => exact ⟨hl.1, ih hl.2⟩

end Dmr.Py
