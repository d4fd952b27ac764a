import Verif.Py.Spec
import Verif.Py.Regular
import Verif.Py.Distinct
/-
A value in a memory shows one tree only, if `_io`, `_parent` and `_root` are left out of it.
-/

set_option autoImplicit false

namespace Dmr.Py

open Graph (regular regularIn regularInValues)

theorem ShowsAttrs.names {h : List Obj} : ∀ {xs : List (String × Val)} {vs : List (String × PyVal)}, ShowsAttrs h xs vs → xs.map Prod.fst = vs.map Prod.fst
  | _, _, .nil => rfl
  | _, _, .link _ es => congrArg _ es.names
  | _, _, .cons _ _ es => congrArg _ es.names

theorem value_unique {α : Type} {n : String} {p q : α} : ∀ {l : List (String × α)}, (l.map Prod.fst).Nodup → (n, p) ∈ l → (n, q) ∈ l → p = q
  | [], _, h, _ => absurd h List.not_mem_nil
  | a :: l, hn, h, h' => by
    rw [List.map_cons, List.nodup_cons] at hn
    rcases List.mem_cons.1 h with h1 | h1 <;> rcases List.mem_cons.1 h' with h2 | h2
    · rw [← h1] at h2
      injection h2 with _ h2
      exact h2.symm
    · rw [← h1] at hn
      exact absurd (List.mem_map_of_mem (f := Prod.fst) h2) hn.1
    · rw [← h2] at hn
      exact absurd (List.mem_map_of_mem (f := Prod.fst) h1) hn.1
    · exact value_unique hn.2 h1 h2

/-- What `_io`, `_parent` and `_root` are in the tree of an object. -/
theorem link_value {vs l : List (String × PyVal)} (hn : (vs.map Prod.fst).Nodup)
    (hv : vs = ("_io", PyVal.stream) :: ("_parent", PyVal.backref) :: ("_root", PyVal.backref) :: l) {n : String} (hl : n ∈ links) {p : PyVal}
    (hp : (n, p) ∈ vs) : p = if n = "_io" then .stream else .backref := by
  subst hv
  simp only [links, List.mem_cons, List.not_mem_nil, or_false] at hl
  rcases hl with rfl | rfl | rfl
  · exact value_unique hn hp (by simp)
  · exact value_unique hn hp (by simp)
  · exact value_unique hn hp (by simp)

mutual
theorem Shows.unique {h : List Obj} (hd : Distinct h) : ∀ {x : Val} {v w : PyVal}, Shows h x v → Shows h x w → regular v → regular w → v = w
  | _, _, _, .plain v s l, e2, _, _ => by
    cases e2 with
    | plain => rfl
  | _, _, _, .list e, e2, r1, r2 => by
    cases e2 with
    | list e2 => exact congrArg _ (ShowsItems.unique hd e e2 r1 r2)
  | _, _, _, .object (attrs := attrs) a e, e2, r1, r2 => by
    cases e2 with
    | object a2 e2 =>
      rw [a] at a2
      cases a2
      obtain ⟨⟨l1, h1⟩, r1⟩ := r1
      obtain ⟨⟨l2, h2⟩, r2⟩ := r2
      have hn := hd _ (List.mem_of_getElem? a)
      refine congrArg _ (ShowsAttrs.unique hd e e2 (fun n i p q hp hq => ?_) r1 r2)
      rw [link_value (by rw [← e.names]; exact hn) h1 i hp, link_value (by rw [← e2.names]; exact hn) h2 i hq]
theorem ShowsItems.unique {h : List Obj} (hd : Distinct h) : ∀ {x : List Val} {v w : List PyVal}, ShowsItems h x v → ShowsItems h x w →
    regularIn v → regularIn w → v = w
  | _, _, _, .nil, e2, _, _ => by cases e2; rfl
  | _, _, _, .cons e es, e2, r1, r2 => by
    cases e2 with
    | cons e2 es2 => rw [Shows.unique hd e e2 r1.1 r2.1, ShowsItems.unique hd es es2 r1.2 r2.2]
theorem ShowsAttrs.unique {h : List Obj} (hd : Distinct h) : ∀ {x : List (String × Val)} {v w : List (String × PyVal)},
    ShowsAttrs h x v → ShowsAttrs h x w → (∀ n ∈ links, ∀ p q, (n, p) ∈ v → (n, q) ∈ w → p = q) → regularInValues v → regularInValues w → v = w
  | _, _, _, .nil, e2, _, _, _ => by cases e2; rfl
  | _, _, _, .link l es, e2, hl, r1, r2 => by
    cases e2 with
    | link l2 es2 =>
      rw [hl _ l _ _ List.mem_cons_self List.mem_cons_self,
        ShowsAttrs.unique hd es es2 (fun n i p q m1 m2 => hl n i p q (List.mem_cons_of_mem _ m1) (List.mem_cons_of_mem _ m2)) r1.2 r2.2]
    | cons l2 => exact absurd l l2
  | _, _, _, .cons l e es, e2, hl, r1, r2 => by
    cases e2 with
    | link l2 => exact absurd l2 l
    | cons l2 e2 es2 =>
      rw [Shows.unique hd e e2 r1.1 r2.1,
        ShowsAttrs.unique hd es es2 (fun n i p q m1 m2 => hl n i p q (List.mem_cons_of_mem _ m1) (List.mem_cons_of_mem _ m2)) r1.2 r2.2]
end

end Dmr.Py
