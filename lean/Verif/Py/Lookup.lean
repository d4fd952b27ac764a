import Verif.Py.Source
/-
Finding classes and enumerations of the library: the names of the classes are distinct, and so are those of the enumerations.
-/

set_option autoImplicit false

namespace Dmr.Py

theorem find_of_nodup {α : Type} (f : α → String) (l : List α) (h : (l.map f).Nodup) (a : α) (ha : a ∈ l) :
    l.find? (fun d => f d == f a) = some a := by
  induction l with
  | nil => simp at ha
  | cons b l ih =>
    rw [List.map_cons, List.nodup_cons] at h
    by_cases e : f b = f a
    · rcases List.mem_cons.1 ha with rfl | ha
      · simp
      · exact absurd (List.mem_map.2 ⟨a, ha, rfl⟩) (e ▸ h.1)
    · rw [List.find?_cons_of_neg (by simpa using e)]
      rcases List.mem_cons.1 ha with rfl | ha
      · exact absurd rfl e
      · exact ih h.2 ha

theorem classes_distinct : (library.classes.map ClassDef.name).Nodup := by decide +kernel
theorem enums_distinct : (library.enums.map EnumDef.qualified).Nodup := by decide +kernel

theorem class_at (i : Nat) (f : File) (hf : files[i]? = some f) (j : Nat) (d : ClassDef) (hd : f.classes[j]? = some d) :
    library.class d.name = some d :=
  find_of_nodup _ _ classes_distinct d
    (List.mem_flatten.2 ⟨_, List.mem_map.2 ⟨f, List.mem_of_getElem? hf, rfl⟩, List.mem_of_getElem? hd⟩)

theorem enum_at (i : Nat) (f : File) (hf : files[i]? = some f) (j : Nat) (d : EnumDef) (hd : f.enums[j]? = some d) :
    library.enums.find? (fun e => e.qualified == d.qualified) = some d :=
  find_of_nodup _ _ enums_distinct d
    (List.mem_flatten.2 ⟨_, List.mem_map.2 ⟨f, List.mem_of_getElem? hf, rfl⟩, List.mem_of_getElem? hd⟩)

end Dmr.Py
