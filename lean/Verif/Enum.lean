import Verif.Runtime
import Mathlib.Data.List.Nodup
/-
Facts about `resolve_enum` for enumerations whose members have different values.
-/

namespace Dmr

/-- An enumeration whose member list is complete and whose members have different values. -/
class LawfulEnum (E : Type) [PyEnum E] : Prop where
  complete : ∀ e : E, e ∈ PyEnum.all (E := E)
  distinct : ((PyEnum.all (E := E)).map PyEnum.value).Nodup

theorem PyEnum.value_inj {E : Type} [PyEnum E] [LawfulEnum E] {a b : E}
    (h : PyEnum.value a = PyEnum.value b) : a = b :=
  List.inj_on_of_nodup_map LawfulEnum.distinct (LawfulEnum.complete a) (LawfulEnum.complete b) h

theorem resolveEnum_eq_known {E : Type} [PyEnum E] [LawfulEnum E] (v : Nat) (e : E) :
    resolveEnum E v = .known e ↔ v = PyEnum.value e := by
  unfold resolveEnum
  constructor
  · intro h
    split at h
    · rename_i e' he
      have := List.find?_some he
      simp only [EnumVal.known.injEq] at h
      subst h
      simpa using (eq_of_beq this).symm
    · cases h
  · rintro rfl
    have hs : ((PyEnum.all (E := E)).find? (fun e' => PyEnum.value e' == PyEnum.value e)).isSome := by
      rw [List.find?_isSome]; exact ⟨e, LawfulEnum.complete e, by simp⟩
    obtain ⟨e', he⟩ := Option.isSome_iff_exists.mp hs
    rw [he]
    have := List.find?_some he
    rw [PyEnum.value_inj (eq_of_beq this)]

theorem resolveEnum_eq_raw {E : Type} [PyEnum E] [LawfulEnum E] (v w : Nat) :
    resolveEnum E v = .raw w ↔ v = w ∧ ∀ e : E, PyEnum.value e ≠ v := by
  unfold resolveEnum
  constructor
  · intro h
    split at h
    · cases h
    · rename_i hn
      cases h
      refine ⟨rfl, fun e he => ?_⟩
      have := List.find?_eq_none.mp hn e (LawfulEnum.complete e)
      simp [he] at this
  · rintro ⟨rfl, h⟩
    have : (PyEnum.all (E := E)).find? (fun e => PyEnum.value e == v) = none := by
      rw [List.find?_eq_none]; intro e _; simp [h e]
    rw [this]

/-- The integer a decoded enumeration field stands for (Python: `x.value` for a member, `x` otherwise). -/
def EnumVal.toInt {E : Type} [PyEnum E] : EnumVal E → Nat
  | .known e => PyEnum.value e
  | .raw v => v

theorem toInt_resolveEnum {E : Type} [PyEnum E] (v : Nat) : (resolveEnum E v).toInt = v := by
  unfold resolveEnum
  split
  · rename_i e he
    have := List.find?_some he
    simpa [EnumVal.toInt] using this
  · rfl

theorem resolveEnum_inj {E : Type} [PyEnum E] {v w : Nat} (h : resolveEnum E v = resolveEnum E w) : v = w := by
  rw [← toInt_resolveEnum (E := E) v, h, toInt_resolveEnum]

end Dmr
