import Verif.EnumPairs
import Verif.Enums
/-
C50: the members of the enumerations are named as in the schema.
-/

namespace Dmr

/-- The name of the member that a number is turned into (`resolve_enum`); none if the number stays a number. -/
def EnumPair.pythonName (c : EnumPair) (v : Nat) : Option String :=
  let _ := c.inst
  match resolveEnum c.E v with
  | .known e => some (c.pyName e)
  | .raw _ => none

/-- The number of the member with the given name (`E[name].value`). -/
def EnumPair.pythonValue (c : EnumPair) (name : String) : Option Nat :=
  let _ := c.inst
  ((PyEnum.all (E := c.E)).find? fun e => c.pyName e == name).map PyEnum.value

/-- The name the schema gives to a number. -/
def EnumPair.schemaName (c : EnumPair) (v : Nat) : Option String := (c.schema.members.find? fun m => m.1 == v).map (·.2)

/-- The number the schema gives to a name. -/
def EnumPair.schemaValue (c : EnumPair) (name : String) : Option Nat := (c.schema.members.find? fun m => m.2 == name).map (·.1)

/-- Same members, no number and no name twice. -/
structure EnumPair.Agrees (c : EnumPair) : Prop where
  perm : (let _ := c.inst; (PyEnum.all (E := c.E)).map fun e => (PyEnum.value e, c.pyName e)).Perm c.schema.members
  values : (c.schema.members.map (·.1)).Nodup
  names : (c.schema.members.map (·.2)).Nodup

theorem enumPairs_agree : ∀ c ∈ enumPairs, c.Agrees := by
  unfold enumPairs
  repeat' refine List.forall_mem_cons.2 ⟨⟨by decide +kernel, by decide +kernel, by decide +kernel⟩, ?_⟩
  exact List.forall_mem_nil _

theorem find_key {α β γ : Type} [DecidableEq β] (f : α → β) (g : α → γ) (l : List α) (h : (l.map f).Nodup) (k : β) (x : γ) :
    (l.find? fun a => f a == k).map g = some x ↔ ∃ a ∈ l, f a = k ∧ g a = x := by
  rw [Option.map_eq_some_iff]
  constructor
  · rintro ⟨a, ha, hx⟩
    exact ⟨a, List.mem_of_find?_eq_some ha, by simpa using List.find?_some ha, hx⟩
  · rintro ⟨a, ha, hk, hx⟩
    rcases hf : l.find? (fun a => f a == k) with _ | b
    · have := List.find?_eq_none.1 hf a ha
      simp [hk] at this
    · have hb : f b = k := by simpa using List.find?_some hf
      have : b = a := List.inj_on_of_nodup_map h (List.mem_of_find?_eq_some hf) ha (hb.trans hk.symm)
      exact ⟨b, rfl, this ▸ hx⟩

theorem EnumPair.pythonName_eq (c : EnumPair) (v : Nat) : c.pythonName v =
    (let _ := c.inst; ((PyEnum.all (E := c.E)).find? fun e => PyEnum.value e == v).map c.pyName) := by
  obtain ⟨file, E, pyName, schema⟩ := c
  dsimp only [EnumPair.pythonName, resolveEnum]
  rcases (PyEnum.all (E := E)).find? fun e => PyEnum.value e == v with _ | e <;> rfl

/-- C50. For every enumeration and every number, the member that the decoders give for the number has the name that the schema gives
to the number; numbers without a name in the schema stay numbers. -/
theorem C50_names (c : EnumPair) (hc : c ∈ enumPairs) (v : Nat) : c.pythonName v = c.schemaName v := by
  obtain ⟨hp, hv, -⟩ := enumPairs_agree c hc
  rw [EnumPair.pythonName_eq]
  obtain ⟨file, E, pyName, schema⟩ := c
  dsimp only [EnumPair.schemaName] at *
  have h1 : (((PyEnum.all (E := E)).map PyEnum.value)).Nodup := by
    have := (hp.map (·.1)).nodup_iff.2 hv
    rwa [List.map_map] at this
  refine Option.ext fun n => ?_
  rw [find_key (·.1) (·.2) schema.members hv v n]
  rw [find_key PyEnum.value pyName _ h1 v n]
  constructor
  · rintro ⟨a, ha, rfl, rfl⟩
    exact ⟨(PyEnum.value a, pyName a), hp.mem_iff.1 (List.mem_map_of_mem ha), rfl, rfl⟩
  · rintro ⟨⟨x, y⟩, ha, rfl, rfl⟩
    obtain ⟨a, h, e⟩ := List.mem_map.1 (hp.mem_iff.2 ha)
    cases e
    exact ⟨a, h, rfl, rfl⟩

example := C50_names ⟨_, Hytera.DataDeliveryStates.StateTypes, Hytera.DataDeliveryStates.StateTypes.pyName, Ksy.Hytera.DataDeliveryStates.StateTypes⟩
  (List.mem_of_getElem? (i := 0) rfl) 8

/-- C50. For every enumeration and every text, the member of that name exists in the Python program iff the schema has it, and then
with the same number. -/
theorem C50_values (c : EnumPair) (hc : c ∈ enumPairs) (name : String) : c.pythonValue name = c.schemaValue name := by
  obtain ⟨hp, -, hn⟩ := enumPairs_agree c hc
  obtain ⟨file, E, pyName, schema⟩ := c
  dsimp only [EnumPair.pythonValue, EnumPair.schemaValue] at *
  have h1 : (((PyEnum.all (E := E)).map pyName)).Nodup := by
    have := (hp.map (·.2)).nodup_iff.2 hn
    rwa [List.map_map] at this
  refine Option.ext fun n => ?_
  rw [find_key (·.2) (·.1) schema.members hn name n, find_key pyName PyEnum.value _ h1 name n]
  constructor
  · rintro ⟨a, ha, rfl, rfl⟩
    exact ⟨(PyEnum.value a, pyName a), hp.mem_iff.1 (List.mem_map_of_mem ha), rfl, rfl⟩
  · rintro ⟨⟨x, y⟩, ha, rfl, rfl⟩
    obtain ⟨a, h, e⟩ := List.mem_map.1 (hp.mem_iff.2 ha)
    cases e
    exact ⟨a, h, rfl, rfl⟩

example := C50_values ⟨_, Hytera.DataDeliveryStates.StateTypes, Hytera.DataDeliveryStates.StateTypes.pyName, Ksy.Hytera.DataDeliveryStates.StateTypes⟩
  (List.mem_of_getElem? (i := 0) rfl) "location_protocol_state"

/-- All 65 enumerations of the library are in the list. -/
theorem C50_all : ∀ c ∈ libraryEnums, c.E ∈ enumPairs.map (·.E) := by
  unfold libraryEnums
  repeat' refine List.forall_mem_cons.2 ⟨by simp only [enumPairs, List.map, List.mem_cons, true_or, or_true], ?_⟩
  exact List.forall_mem_nil _

/-- A concrete case: the state types of delivery state reports. -/
example : ∃ c ∈ enumPairs, c.file = "okdmr/kaitai/hytera/data_delivery_states.py" ∧ c.schemaName 8 = some "location_protocol_state" ∧
    c.pythonName 8 = some "location_protocol_state" ∧ c.pythonName 7 = none ∧ c.pythonValue "location_protocol_state" = some 8 := by
  refine ⟨⟨_, Hytera.DataDeliveryStates.StateTypes, Hytera.DataDeliveryStates.StateTypes.pyName, Ksy.Hytera.DataDeliveryStates.StateTypes⟩,
    List.mem_of_getElem? (i := 0) rfl, rfl, ?_, ?_, ?_, ?_⟩ <;> decide +kernel

end Dmr
