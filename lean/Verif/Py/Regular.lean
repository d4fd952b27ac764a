import Verif.Py.Spec
/-
How the objects of a tree lie in the memory (Verif/Py/Place), as far as Verif/Py/Spec speaks of it.
-/

set_option autoImplicit false

namespace Dmr.Py.Graph

mutual
/-- All objects in the tree have the three attributes that constructors assign, before all others. -/
def regular : PyVal → Prop
  | .struct _ attrs =>
    (∃ l, attrs = ("_io", PyVal.stream) :: ("_parent", PyVal.backref) :: ("_root", PyVal.backref) :: l) ∧ regularInValues attrs
  | .list items => regularIn items
  | _ => True
/-- In the items of a list. -/
def regularIn : List PyVal → Prop
  | [] => True
  | v :: vs => regular v ∧ regularIn vs
/-- In the attributes of an object. -/
def regularInValues : List (String × PyVal) → Prop
  | [] => True
  | (_, v) :: vs => regular v ∧ regularInValues vs
end

theorem regularIn_iff : ∀ l, regularIn l ↔ ∀ v ∈ l, regular v
  | [] => by simp [regularIn]
  | v :: vs => by simp [regularIn, regularIn_iff vs]

theorem regularInValues_append : ∀ l l', regularInValues (l ++ l') ↔ regularInValues l ∧ regularInValues l'
  | [], l' => by simp [regularInValues]
  | (_, v) :: vs, l' => by simp [regularInValues, regularInValues_append vs, and_assoc]

theorem regular_object (cls : String) (l : List (List (String × PyVal))) :
    regular (.object cls l) ↔ regularInValues l.flatten := by
  simp [PyVal.object, regular, regularInValues]

theorem regular_flatten_cons (a : List (String × PyVal)) (l : List (List (String × PyVal))) :
    regularInValues (a :: l).flatten ↔ regularInValues a ∧ regularInValues l.flatten := by
  rw [List.flatten_cons, regularInValues_append]

theorem regular_attr (k : String) (v : PyVal) : regularInValues (PyVal.attr k v) ↔ regular v := by
  simp [PyVal.attr, regularInValues]

section
variable {α E : Type}

theorem regular_optAttr (k : String) (f : α → PyVal) (o : Option α) (h : ∀ x, regular (f x)) :
    regularInValues (PyVal.optAttr k (o.map f)) := by
  cases o with
  | none => simp [PyVal.optAttr, regularInValues]
  | some a => simp [PyVal.optAttr, regularInValues, h]

theorem regular_optAttr' (k : String) (o : Option PyVal) (h : ∀ v, o = some v → regular v) :
    regularInValues (PyVal.optAttr k o) := by
  cases o with
  | none => simp [PyVal.optAttr, regularInValues]
  | some a => simp [PyVal.optAttr, regularInValues, h a rfl]

theorem regular_enum (cls : String) [PyEnum E] (e : EnumVal E) : regular (EnumVal.toPy cls e) := by
  cases e <;> simp [EnumVal.toPy, regular]

theorem regular_list (f : α → PyVal) (l : List α) (h : ∀ x, regular (f x)) : regular (.list (l.map f)) := by
  rw [regular, regularIn_iff]
  intro v hv
  obtain ⟨x, _, rfl⟩ := List.mem_map.1 hv
  exact h x
end

theorem regular_int (i : Int) : regular (.int i) := by simp [regular]
theorem regular_bool (i : Bool) : regular (.bool i) := by simp [regular]
theorem regular_bytes (i : Bytes) : regular (.bytes i) := by simp [regular]
theorem regular_str (i : PyStr) : regular (.str i) := by simp [regular]

/-- The `_parent` of an object of the class `cls` that is made as a part. -/
def parentOf (cls : String) (parent : Val) : Val := if cls ∈ fileClasses then .pv .none else parent
/-- Its `_root`. -/
def rootIn (cls : String) (root : Val) (self : Nat) : Val := if cls ∈ fileClasses then .obj self else root

section
variable (io : Val)

theorem place_struct (parent root : Val) (b : Nat) (cls : String) (l : List (String × PyVal)) :
    place io parent root b (.struct cls l) =
      (.obj b, placeObj io (parentOf cls parent) (rootIn cls root b) b (.struct cls l)) := by
  rw [place, parentOf, rootIn]
  by_cases hc : cls ∈ fileClasses
  · simp only [if_pos hc]; rfl
  · simp only [if_neg hc]; rfl

theorem placeObj_struct (parent root : Val) (b : Nat) (cls : String) (l : List (String × PyVal)) :
    placeObj io parent root b (.struct cls l) =
      ⟨cls, (placeAttrs io parent root b (b + 1) l).1⟩ :: (placeAttrs io parent root b (b + 1) l).2 := rfl

theorem place_list (parent root : Val) (b : Nat) (l : List PyVal) :
    place io parent root b (.list l) = (.list (placeItems io parent root b l).1, (placeItems io parent root b l).2) := by
  rw [place]

theorem placeItems_cons (parent root : Val) (b : Nat) (v : PyVal) (l : List PyVal) :
    placeItems io parent root b (v :: l) =
      ((place io parent root b v).1 :: (placeItems io parent root (b + objects v) l).1,
        (place io parent root b v).2 ++ (placeItems io parent root (b + objects v) l).2) := by
  rw [placeItems, length_place]

theorem placeAttrs_link (parent root : Val) (self b : Nat) (x : String) (hx : x ∈ links) (v : PyVal) (l : List (String × PyVal)) :
    placeAttrs io parent root self b ((x, v) :: l) =
      ((x, if x = "_io" then io else if x = "_parent" then parent else root) :: (placeAttrs io parent root self b l).1,
        (placeAttrs io parent root self b l).2) := by
  rw [placeAttrs]
  simp only [links, List.mem_cons, List.not_mem_nil, or_false] at hx
  rcases hx with rfl | rfl | rfl <;> simp

theorem placeAttrs_cons (parent root : Val) (self b : Nat) (x : String) (hx : x ∉ links) (v : PyVal) (l : List (String × PyVal)) :
    placeAttrs io parent root self b ((x, v) :: l) =
      ((x, (place io (.obj self) root b v).1) :: (placeAttrs io parent root self (b + objects v) l).1,
        (place io (.obj self) root b v).2 ++ (placeAttrs io parent root self (b + objects v) l).2) := by
  rw [placeAttrs]
  simp only [links, List.mem_cons, List.not_mem_nil, or_false, not_or] at hx
  simp only [hx, if_false, length_place]

theorem objectsIn_link (x : String) (hx : x ∈ links) (v : PyVal) (l : List (String × PyVal)) : objectsIn ((x, v) :: l) = objectsIn l := by
  rw [objectsIn, if_pos (by simpa [links] using hx), Nat.zero_add]

theorem objectsIn_cons (x : String) (hx : x ∉ links) (v : PyVal) (l : List (String × PyVal)) :
    objectsIn ((x, v) :: l) = objects v + objectsIn l := by
  rw [objectsIn, if_neg (by simpa [links] using hx)]

/-- A value that is neither an object nor a list. -/
def Plain (v : PyVal) : Prop := (∀ cls vs, v ≠ .struct cls vs) ∧ ∀ vs, v ≠ .list vs

theorem place_plain (parent root : Val) (b : Nat) (v : PyVal) (hv : Plain v) : place io parent root b v = (.pv v, []) := by
  rw [place]
  · exact hv.1
  · exact hv.2

theorem objects_plain (v : PyVal) (hv : Plain v) : objects v = 0 := by
  rw [objects]
  · exact hv.1
  · exact hv.2

theorem plain_or (v : PyVal) : Plain v ∨ (∃ l, v = .list l) ∨ ∃ cls l, v = .struct cls l := by
  cases v with
  | struct c l => exact .inr (.inr ⟨_, _, rfl⟩)
  | list l => exact .inr (.inl ⟨_, rfl⟩)
  | _ => exact .inl ⟨by simp, by simp⟩

theorem before {h p l m q : List Obj} (e : h = p ++ (l ++ m) ++ q) : h = p ++ l ++ (m ++ q) := by
  rw [e]; simp only [List.append_assoc]
theorem behind {h p l m q : List Obj} (e : h = p ++ (l ++ m) ++ q) : h = (p ++ l) ++ m ++ q := by
  rw [e]; simp only [List.append_assoc]
theorem behind_one {h p m q : List Obj} {o : Obj} (e : h = p ++ (o :: m) ++ q) : h = (p ++ [o]) ++ m ++ q := by
  rw [e]; simp only [List.append_assoc, List.cons_append, List.nil_append]

mutual
theorem place_shows (parent root : Val) (h p q : List Obj) (b : Nat) (hb : p.length = b) : ∀ (v : PyVal),
    h = p ++ (place io parent root b v).2 ++ q → Shows h (place io parent root b v).1 v
  | .struct cls attrs, e => by
    rw [place_struct, placeObj_struct] at e
    rw [place_struct]
    refine .object (attrs := (placeAttrs io (parentOf cls parent) (rootIn cls root b) b (b + 1) attrs).1) (by rw [e]; simp [← hb]) ?_
    exact placeAttrs_shows _ _ b h _ q (b + 1) (by simp [hb]) attrs (behind_one e)
  | .list items, e => by
    rw [place_list] at e ⊢
    exact .list (placeItems_shows _ _ h p q b hb items e)
  | .none, _ => by rw [place_plain]; exact .plain _ (by simp) (by simp); simp [Plain]
  | .bool _, _ => by rw [place_plain]; exact .plain _ (by simp) (by simp); simp [Plain]
  | .int _, _ => by rw [place_plain]; exact .plain _ (by simp) (by simp); simp [Plain]
  | .bytes _, _ => by rw [place_plain]; exact .plain _ (by simp) (by simp); simp [Plain]
  | .str _, _ => by rw [place_plain]; exact .plain _ (by simp) (by simp); simp [Plain]
  | .enum _ _, _ => by rw [place_plain]; exact .plain _ (by simp) (by simp); simp [Plain]
  | .stream, _ => by rw [place_plain]; exact .plain _ (by simp) (by simp); simp [Plain]
  | .backref, _ => by rw [place_plain]; exact .plain _ (by simp) (by simp); simp [Plain]
  | .dict _, _ => by rw [place_plain]; exact .plain _ (by simp) (by simp); simp [Plain]
theorem placeItems_shows (parent root : Val) (h p q : List Obj) (b : Nat) (hb : p.length = b) : ∀ (l : List PyVal),
    h = p ++ (placeItems io parent root b l).2 ++ q → ShowsItems h (placeItems io parent root b l).1 l
  | [], _ => by rw [placeItems]; exact .nil
  | v :: rest, e => by
    rw [placeItems_cons] at e ⊢
    exact .cons (place_shows parent root h p _ b hb v (before e))
      (placeItems_shows parent root h (p ++ (place io parent root b v).2) q _ (by simp [hb, length_place]) rest (behind e))
theorem placeAttrs_shows (parent root : Val) (self : Nat) (h p q : List Obj) (b : Nat) (hb : p.length = b) : ∀ (l : List (String × PyVal)),
    h = p ++ (placeAttrs io parent root self b l).2 ++ q → ShowsAttrs h (placeAttrs io parent root self b l).1 l
  | [], _ => by rw [placeAttrs]; exact .nil
  | (x, v) :: rest, e => by
    by_cases hx : x ∈ links
    · rw [placeAttrs_link io _ _ _ _ _ hx] at e ⊢
      exact .link hx (placeAttrs_shows parent root self h p q b hb rest e)
    · rw [placeAttrs_cons io _ _ _ _ _ hx] at e ⊢
      exact .cons hx (place_shows (.obj self) root h p _ b hb v (before e))
        (placeAttrs_shows parent root self h (p ++ (place io (.obj self) root b v).2) q _ (by simp [hb, length_place]) rest (behind e))
end

/-- The attributes that an object gets from its constructor. -/
structure Links (parent root : Val) (o : Obj) : Prop where
  io : o.get "_io" = some io
  parent : o.get "_parent" = some parent
  root : o.get "_root" = some root

theorem placeObj_links (parent root : Val) (b : Nat) (cls : String) (l : List (String × PyVal)) (hr : regular (.struct cls l)) :
    Links io parent root ⟨cls, (placeAttrs io parent root b (b + 1) l).1⟩ := by
  rw [regular] at hr
  obtain ⟨⟨l', rfl⟩, -⟩ := hr
  rw [placeAttrs_link io _ _ _ _ _ (by simp [links]), placeAttrs_link io _ _ _ _ _ (by simp [links]), placeAttrs_link io _ _ _ _ _ (by simp [links])]
  constructor <;> simp [Obj.get, List.lookup]

mutual
theorem place_io (parent root : Val) (b : Nat) : ∀ (v : PyVal), regular v → ∀ o ∈ (place io parent root b v).2, o.get "_io" = some io
  | .struct cls attrs, hr, o, ho => by
    rw [place_struct, placeObj_struct] at ho
    rcases List.mem_cons.1 ho with rfl | ho
    · exact (placeObj_links io _ _ b cls attrs hr).io
    · rw [regular] at hr
      exact placeAttrs_io _ _ b _ attrs hr.2 o ho
  | .list items, hr, o, ho => by
    rw [place_list] at ho
    rw [regular] at hr
    exact placeItems_io parent root b items hr o ho
  | .none, _, _, ho | .bool _, _, _, ho | .int _, _, _, ho | .bytes _, _, _, ho | .str _, _, _, ho | .enum _ _, _, _, ho
  | .stream, _, _, ho | .backref, _, _, ho | .dict _, _, _, ho => by
    rw [place_plain] at ho
    · simp at ho
    · simp [Plain]
theorem placeItems_io (parent root : Val) (b : Nat) : ∀ (l : List PyVal), regularIn l → ∀ o ∈ (placeItems io parent root b l).2, o.get "_io" = some io
  | [], _, o, ho => by rw [placeItems] at ho; simp at ho
  | v :: rest, hr, o, ho => by
    rw [placeItems_cons] at ho
    rw [regularIn] at hr
    rcases List.mem_append.1 ho with ho | ho
    · exact place_io parent root b v hr.1 o ho
    · exact placeItems_io parent root _ rest hr.2 o ho
theorem placeAttrs_io (parent root : Val) (self b : Nat) : ∀ (l : List (String × PyVal)), regularInValues l → ∀ o ∈ (placeAttrs io parent root self b l).2, o.get "_io" = some io
  | [], _, o, ho => by rw [placeAttrs] at ho; simp at ho
  | (x, v) :: rest, hr, o, ho => by
    rw [regularInValues] at hr
    by_cases hx : x ∈ links
    · rw [placeAttrs_link io _ _ _ _ _ hx] at ho
      exact placeAttrs_io parent root self _ rest hr.2 o ho
    · rw [placeAttrs_cons io _ _ _ _ _ hx] at ho
      rcases List.mem_append.1 ho with ho | ho
      · exact place_io (.obj self) root b v hr.1 o ho
      · exact placeAttrs_io parent root self _ rest hr.2 o ho
end

/-- What is said of a part `c` of an object whose number is `parent` and whose `_root` is `root`. -/
def PartOf (h : List Obj) (parent root : Option Val) (c : Nat) : Prop :=
  ∃ p, h[c]? = some p ∧
    (if p.cls ∈ fileClasses then p.get "_parent" = some (.pv .none) ∧ p.get "_root" = some (.obj c)
      else p.get "_parent" = parent ∧ p.get "_root" = root)

/-- The parts of the object `o` with the number `r` are in order. -/
def Joined (h : List Obj) (r : Nat) (o : Obj) : Prop := ∀ c ∈ partsOf o, PartOf h (some (.obj r)) (o.get "_root") c

/-- The objects `l`, whose numbers are from `b` on, are. -/
def AllJoined (h : List Obj) (b : Nat) (l : List Obj) : Prop := ∀ i o, l[i]? = some o → Joined h (b + i) o

theorem AllJoined.append {h : List Obj} {b : Nat} {l m : List Obj} (hl : AllJoined h b l) (hm : AllJoined h (b + l.length) m) :
    AllJoined h b (l ++ m) := by
  intro i o hi
  by_cases hlt : i < l.length
  · rw [List.getElem?_append_left hlt] at hi
    exact hl i o hi
  · rw [List.getElem?_append_right (by omega)] at hi
    have := hm _ o hi
    rwa [show b + l.length + (i - l.length) = b + i by omega] at this

theorem AllJoined.cons {h : List Obj} {b : Nat} {o : Obj} {m : List Obj} (ho : Joined h b o) (hm : AllJoined h (b + 1) m) :
    AllJoined h b (o :: m) := by
  intro i o' hi
  cases i with
  | zero => cases hi; exact ho
  | succ i =>
    have := hm i o' hi
    rwa [show b + 1 + i = b + (i + 1) by omega] at this

/-- The parts among attributes. -/
def partsIn (l : List (String × Val)) : List Nat := (l.filter fun a => a.1 ∉ links).flatMap fun a => refs a.2

theorem partsIn_link (x : String) (hx : x ∈ links) (v : Val) (l : List (String × Val)) : partsIn ((x, v) :: l) = partsIn l := by
  simp [partsIn, hx]
theorem partsIn_cons (x : String) (hx : x ∉ links) (v : Val) (l : List (String × Val)) : partsIn ((x, v) :: l) = refs v ++ partsIn l := by
  simp [partsIn, hx]

mutual
theorem place_joined (parent root : Val) (h p q : List Obj) (b : Nat) (hb : p.length = b) : ∀ (v : PyVal), regular v →
    h = p ++ (place io parent root b v).2 ++ q →
    AllJoined h b (place io parent root b v).2 ∧ ∀ c ∈ refs (place io parent root b v).1, PartOf h (some parent) (some root) c
  | .struct cls attrs, hr, e => by
    have hl := placeObj_links io (parentOf cls parent) (rootIn cls root b) b cls attrs hr
    rw [place_struct, placeObj_struct] at e
    rw [place_struct, placeObj_struct]
    rw [regular] at hr
    have ha := placeAttrs_joined (parentOf cls parent) (rootIn cls root b) b h _ q (b + 1) (by simp [hb]) attrs hr.2
      (behind_one e)
    refine ⟨.cons (fun c hc => ?_) ha.1, fun c hc => ?_⟩
    · rw [hl.root]
      exact ha.2 c hc
    · simp only [refs, List.mem_singleton] at hc
      subst hc
      refine ⟨⟨cls, (placeAttrs io (parentOf cls parent) (rootIn cls root c) c (c + 1) attrs).1⟩, by rw [e]; simp [← hb], ?_⟩
      rw [hl.parent, hl.root]
      simp only [parentOf, rootIn]
      by_cases hc : cls ∈ fileClasses
      · simp [if_pos hc]
      · simp [if_neg hc]
  | .list items, hr, e => by
    rw [place_list] at e ⊢
    rw [regular] at hr
    rw [refs]
    exact placeItems_joined parent root h p q b hb items hr e
  | .none, _, _ | .bool _, _, _ | .int _, _, _ | .bytes _, _, _ | .str _, _, _ | .enum _ _, _, _
  | .stream, _, _ | .backref, _, _ | .dict _, _, _ => by
    rw [place_plain]
    · exact ⟨fun i o hi => by simp at hi, fun c hc => by simp [refs] at hc⟩
    · simp [Plain]
theorem placeItems_joined (parent root : Val) (h p q : List Obj) (b : Nat) (hb : p.length = b) : ∀ (l : List PyVal), regularIn l →
    h = p ++ (placeItems io parent root b l).2 ++ q →
    AllJoined h b (placeItems io parent root b l).2 ∧ ∀ c ∈ refsOf (placeItems io parent root b l).1, PartOf h (some parent) (some root) c
  | [], _, _ => by rw [placeItems]; exact ⟨fun i o hi => by simp at hi, fun c hc => by simp [refsOf] at hc⟩
  | v :: rest, hr, e => by
    rw [placeItems_cons] at e ⊢
    rw [regularIn] at hr
    have h1 := place_joined parent root h p _ b hb v hr.1 (before e)
    have h2 := placeItems_joined parent root h (p ++ (place io parent root b v).2) q _ (by simp [hb, length_place]) rest hr.2
      (behind e)
    refine ⟨h1.1.append (by rw [length_place]; exact h2.1), fun c hc => ?_⟩
    rw [refsOf, List.mem_append] at hc
    exact hc.elim (h1.2 c) (h2.2 c)
theorem placeAttrs_joined (parent root : Val) (self : Nat) (h p q : List Obj) (b : Nat) (hb : p.length = b) : ∀ (l : List (String × PyVal)),
    regularInValues l → h = p ++ (placeAttrs io parent root self b l).2 ++ q →
    AllJoined h b (placeAttrs io parent root self b l).2 ∧
      ∀ c ∈ partsIn (placeAttrs io parent root self b l).1, PartOf h (some (.obj self)) (some root) c
  | [], _, _ => by rw [placeAttrs]; exact ⟨fun i o hi => by simp at hi, fun c hc => by simp [partsIn] at hc⟩
  | (x, v) :: rest, hr, e => by
    rw [regularInValues] at hr
    by_cases hx : x ∈ links
    · rw [placeAttrs_link io _ _ _ _ _ hx] at e ⊢
      rw [partsIn_link _ hx]
      exact placeAttrs_joined parent root self h p q b hb rest hr.2 e
    · rw [placeAttrs_cons io _ _ _ _ _ hx] at e ⊢
      have h1 := place_joined (.obj self) root h p _ b hb v hr.1 (before e)
      have h2 := placeAttrs_joined parent root self h (p ++ (place io (.obj self) root b v).2) q _ (by simp [hb, length_place]) rest hr.2
        (behind e)
      refine ⟨h1.1.append (by rw [length_place]; exact h2.1), fun c hc => ?_⟩
      rw [partsIn_cons _ hx, List.mem_append] at hc
      exact hc.elim (h1.2 c) (h2.2 c)
end

theorem flatMap_parts (l m : List Obj) : (l ++ m).flatMap partsOf = l.flatMap partsOf ++ m.flatMap partsOf := List.flatMap_append

theorem perm_swap {A B C D R1 R2 : List Nat} (h1 : (A ++ B).Perm R1) (h2 : (C ++ D).Perm R2) :
    ((A ++ C) ++ (B ++ D)).Perm (R1 ++ R2) := by
  refine List.Perm.trans ?_ (h1.append h2)
  simp only [List.append_assoc]
  refine List.Perm.append_left A ?_
  rw [← List.append_assoc, ← List.append_assoc]
  exact List.perm_append_comm.append_right D

mutual
theorem place_once (parent root : Val) (b : Nat) : ∀ (v : PyVal),
    ((place io parent root b v).2.flatMap partsOf ++ refs (place io parent root b v).1).Perm (List.range' b (objects v))
  | .struct cls attrs => by
    rw [place_struct, placeObj_struct, objects, List.range'_succ]
    have ha := placeAttrs_once (parentOf cls parent) (rootIn cls root b) b (b + 1) attrs
    rw [List.flatMap_cons, refs]
    refine List.perm_append_comm.trans ?_
    refine List.Perm.cons b ?_
    refine List.Perm.trans ?_ ha
    rw [List.append_eq, List.nil_append]
    exact List.perm_append_comm
  | .list items => by
    rw [place_list, objects, refs]
    exact placeItems_once parent root b items
  | .none | .bool _ | .int _ | .bytes _ | .str _ | .enum _ _ | .stream | .backref | .dict _ => by
    rw [place_plain, objects_plain]
    · simp [refs]
    · simp [Plain]
    · simp [Plain]
theorem placeItems_once (parent root : Val) (b : Nat) : ∀ (l : List PyVal),
    ((placeItems io parent root b l).2.flatMap partsOf ++ refsOf (placeItems io parent root b l).1).Perm (List.range' b (objectsOf l))
  | [] => by rw [placeItems, objectsOf]; simp [refsOf]
  | v :: rest => by
    rw [placeItems_cons, objectsOf, flatMap_parts, refsOf, ← List.range'_append_1]
    exact perm_swap (place_once parent root b v) (placeItems_once parent root _ rest)
theorem placeAttrs_once (parent root : Val) (self b : Nat) : ∀ (l : List (String × PyVal)),
    ((placeAttrs io parent root self b l).2.flatMap partsOf ++ partsIn (placeAttrs io parent root self b l).1).Perm (List.range' b (objectsIn l))
  | [] => by rw [placeAttrs, objectsIn]; simp [partsIn]
  | (x, v) :: rest => by
    by_cases hx : x ∈ links
    · rw [placeAttrs_link io _ _ _ _ _ hx, objectsIn_link _ hx, partsIn_link _ hx]
      exact placeAttrs_once parent root self b rest
    · rw [placeAttrs_cons io _ _ _ _ _ hx, objectsIn_cons _ hx, partsIn_cons _ hx, flatMap_parts, ← List.range'_append_1]
      exact perm_swap (place_once (.obj self) root b v) (placeAttrs_once parent root self _ rest)
end

end

/-- The memory after `from_bytes`. -/
theorem placeObj_shows (io parent root : Val) (H : List Obj) (cls : String) (l : List (String × PyVal)) :
    Shows (H ++ placeObj io parent root H.length (.struct cls l)) (.obj H.length) (.struct cls l) :=
  .object (by rw [placeObj_struct]; simp)
    (placeAttrs_shows io parent root H.length _ (H ++ [⟨cls, (placeAttrs io parent root H.length (H.length + 1) l).1⟩]) [] (H.length + 1) (by simp) l
      (by rw [placeObj_struct]; simp))

theorem placeObj_navigable (H : List Obj) (k : Nat) (cls : String) (l : List (String × PyVal)) (hr : regular (.struct cls l)) :
    NavigableIn H k (placeObj (.io k) (.pv .none) (.obj H.length) H.length (.struct cls l)) := by
  have hl := placeObj_links (.io k) (.pv .none) (.obj H.length) H.length cls l hr
  rw [regular] at hr
  have hj := placeAttrs_joined (.io k) (.pv .none) (.obj H.length) H.length (H ++ placeObj (.io k) (.pv .none) (.obj H.length) H.length (.struct cls l))
    (H ++ [⟨cls, (placeAttrs (.io k) (.pv .none) (.obj H.length) H.length (H.length + 1) l).1⟩]) [] (H.length + 1) (by simp) l hr.2
    (by rw [placeObj_struct]; simp)
  have hall : AllJoined (H ++ placeObj (.io k) (.pv .none) (.obj H.length) H.length (.struct cls l)) H.length
      (placeObj (.io k) (.pv .none) (.obj H.length) H.length (.struct cls l)) := by
    conv => rhs; rw [placeObj_struct]
    refine .cons (fun c hc => ?_) hj.1
    rw [hl.root]
    exact hj.2 c hc
  refine ⟨⟨_, rfl, hl.parent, hl.root⟩, fun o ho => ?_, fun r o ho c hc => hall r o ho c hc, ?_⟩
  · rw [placeObj_struct] at ho
    rcases List.mem_cons.1 ho with rfl | ho
    · exact hl.io
    · exact placeAttrs_io (.io k) _ _ _ _ l hr.2 o ho
  · rw [length_placeObj, objects, Nat.add_sub_cancel, placeObj_struct, List.flatMap_cons]
    exact List.perm_append_comm.trans (placeAttrs_once (.io k) (.pv .none) (.obj H.length) H.length (H.length + 1) l)

/-- If there was nothing before. -/
theorem navigable_alone {new : List Obj} (h : NavigableIn [] 0 new) : Navigable new :=
  ⟨h.top, h.io, fun r o ho c hc => by simpa using h.part r o ho c hc, by simpa using h.once⟩

end Dmr.Py.Graph
