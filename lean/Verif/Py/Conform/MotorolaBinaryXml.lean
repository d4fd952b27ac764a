import Verif.Py.Base
/-
Generated by tools/mkpyconform.py: the source file of `Motorola.MotorolaBinaryXml` against the model of its classes.
-/

set_option autoImplicit false
set_option linter.unusedSimpArgs false
set_option maxHeartbeats 1000000

namespace Dmr.Py.ConformMotorola

theorem MotorolaBinaryXml.file : files[26]? = some Source.Motorola.MotorolaBinaryXml.file := rfl

theorem enum_MotorolaBinaryXml_Docids : library.enums.find? (fun e => e.qualified == "Motorola.MotorolaBinaryXml.Docids") = some Source.Motorola.MotorolaBinaryXml.Docids := enum_at 26 _ MotorolaBinaryXml.file 0 Source.Motorola.MotorolaBinaryXml.Docids rfl

@[py] theorem resolve_MotorolaBinaryXml_Docids (v : Nat) : resolve library "Motorola.MotorolaBinaryXml.Docids" (.pv (.int (v : Int))) =
    pure (.pv (EnumVal.toPy "Docids" (resolveEnum Dmr.Motorola.MotorolaBinaryXml.Docids v))) := run_resolve Source.Motorola.MotorolaBinaryXml.Docids enum_MotorolaBinaryXml_Docids (by decide) v

@[py] theorem member_MotorolaBinaryXml_Docids_lrrp_immediate_request_ncdt : member library "Motorola.MotorolaBinaryXml.Docids" "lrrp_immediate_request_ncdt" = pure (.pv (.enum "Docids" 5)) := member_of enum_MotorolaBinaryXml_Docids rfl

@[py] theorem same_MotorolaBinaryXml_Docids_lrrp_immediate_request_ncdt (on : EnumVal Dmr.Motorola.MotorolaBinaryXml.Docids) :
    same (.pv (EnumVal.toPy "Docids" on)) (.pv (.enum "Docids" 5)) = decide (on = .known .lrrp_immediate_request_ncdt) :=
  same_known _ _ Dmr.Motorola.MotorolaBinaryXml.Docids.lrrp_immediate_request_ncdt

theorem enum_MotorolaBinaryXml_LrrpElements : library.enums.find? (fun e => e.qualified == "Motorola.MotorolaBinaryXml.LrrpElements") = some Source.Motorola.MotorolaBinaryXml.LrrpElements := enum_at 26 _ MotorolaBinaryXml.file 1 Source.Motorola.MotorolaBinaryXml.LrrpElements rfl

@[py] theorem resolve_MotorolaBinaryXml_LrrpElements (v : Nat) : resolve library "Motorola.MotorolaBinaryXml.LrrpElements" (.pv (.int (v : Int))) =
    pure (.pv (EnumVal.toPy "LrrpElements" (resolveEnum Dmr.Motorola.MotorolaBinaryXml.LrrpElements v))) := run_resolve Source.Motorola.MotorolaBinaryXml.LrrpElements enum_MotorolaBinaryXml_LrrpElements (by decide) v

@[py] theorem member_MotorolaBinaryXml_LrrpElements_request_id_22_opaque : member library "Motorola.MotorolaBinaryXml.LrrpElements" "request_id_22_opaque" = pure (.pv (.enum "LrrpElements" 34)) := member_of enum_MotorolaBinaryXml_LrrpElements rfl

@[py] theorem same_MotorolaBinaryXml_LrrpElements_request_id_22_opaque (on : EnumVal Dmr.Motorola.MotorolaBinaryXml.LrrpElements) :
    same (.pv (EnumVal.toPy "LrrpElements" on)) (.pv (.enum "LrrpElements" 34)) = decide (on = .known .request_id_22_opaque) :=
  same_known _ _ Dmr.Motorola.MotorolaBinaryXml.LrrpElements.request_id_22_opaque

@[py] theorem member_MotorolaBinaryXml_LrrpElements_request_id_23_opaque_1byte : member library "Motorola.MotorolaBinaryXml.LrrpElements" "request_id_23_opaque_1byte" = pure (.pv (.enum "LrrpElements" 35)) := member_of enum_MotorolaBinaryXml_LrrpElements rfl

@[py] theorem same_MotorolaBinaryXml_LrrpElements_request_id_23_opaque_1byte (on : EnumVal Dmr.Motorola.MotorolaBinaryXml.LrrpElements) :
    same (.pv (EnumVal.toPy "LrrpElements" on)) (.pv (.enum "LrrpElements" 35)) = decide (on = .known .request_id_23_opaque_1byte) :=
  same_known _ _ Dmr.Motorola.MotorolaBinaryXml.LrrpElements.request_id_23_opaque_1byte

@[py] theorem member_MotorolaBinaryXml_LrrpElements_request_id_24_cdt_reference : member library "Motorola.MotorolaBinaryXml.LrrpElements" "request_id_24_cdt_reference" = pure (.pv (.enum "LrrpElements" 36)) := member_of enum_MotorolaBinaryXml_LrrpElements rfl

@[py] theorem same_MotorolaBinaryXml_LrrpElements_request_id_24_cdt_reference (on : EnumVal Dmr.Motorola.MotorolaBinaryXml.LrrpElements) :
    same (.pv (EnumVal.toPy "LrrpElements" on)) (.pv (.enum "LrrpElements" 36)) = decide (on = .known .request_id_24_cdt_reference) :=
  same_known _ _ Dmr.Motorola.MotorolaBinaryXml.LrrpElements.request_id_24_cdt_reference

theorem MotorolaBinaryXml_OpaqueElementValue_class : library.class "Motorola.MotorolaBinaryXml.OpaqueElementValue" = some Source.Motorola.MotorolaBinaryXml.OpaqueElementValue := class_at 26 _ MotorolaBinaryXml.file 10 Source.Motorola.MotorolaBinaryXml.OpaqueElementValue rfl

/-- okdmr/kaitai/motorola/motorola_binary_xml.py:199-208 against `Dmr.Motorola.MotorolaBinaryXml.OpaqueElementValue`. -/
@[py] theorem MotorolaBinaryXml_OpaqueElementValue_builds (n : Nat) (H : List Obj) (S : List Stream) (k : Nat) (hk : k < S.length) (s : Stream)
    (parent root : Val) : ((calls library (n + 3)).construct "Motorola.MotorolaBinaryXml.OpaqueElementValue" [.io k, parent, root]).run ⟨H, S.set k s⟩ =
      after Dmr.Motorola.MotorolaBinaryXml.OpaqueElementValue.read s (fun e s' => .raise e ⟨H, S.set k s'⟩)
        (built Dmr.Motorola.MotorolaBinaryXml.OpaqueElementValue.toPy k parent root H S) := by
  rw [construct_eq library _ "Motorola.MotorolaBinaryXml.OpaqueElementValue" _ _ MotorolaBinaryXml_OpaqueElementValue_class rfl rfl]
  py_run [onStream_set _ _ _ _ hk, hk, Dmr.Motorola.MotorolaBinaryXml.OpaqueElementValue.read, Dmr.Motorola.MotorolaBinaryXml.OpaqueElementValue.toPy]

@[py] theorem MotorolaBinaryXml_OpaqueElementValue_place (io parent root : Val) (b : Nat) (x : Dmr.Motorola.MotorolaBinaryXml.OpaqueElementValue) :
    place io parent root b x.toPy = (.obj b, placeObj io parent root b x.toPy) :=
  place_part _ _ _ _ _ _ (by decide)

theorem MotorolaBinaryXml_Opaque1byteValue_class : library.class "Motorola.MotorolaBinaryXml.Opaque1byteValue" = some Source.Motorola.MotorolaBinaryXml.Opaque1byteValue := class_at 26 _ MotorolaBinaryXml.file 5 Source.Motorola.MotorolaBinaryXml.Opaque1byteValue rfl

/-- okdmr/kaitai/motorola/motorola_binary_xml.py:117-125 against `Dmr.Motorola.MotorolaBinaryXml.Opaque1byteValue`. -/
@[py] theorem MotorolaBinaryXml_Opaque1byteValue_builds (n : Nat) (H : List Obj) (S : List Stream) (k : Nat) (hk : k < S.length) (s : Stream)
    (parent root : Val) : ((calls library (n + 3)).construct "Motorola.MotorolaBinaryXml.Opaque1byteValue" [.io k, parent, root]).run ⟨H, S.set k s⟩ =
      after Dmr.Motorola.MotorolaBinaryXml.Opaque1byteValue.read s (fun e s' => .raise e ⟨H, S.set k s'⟩)
        (built Dmr.Motorola.MotorolaBinaryXml.Opaque1byteValue.toPy k parent root H S) := by
  rw [construct_eq library _ "Motorola.MotorolaBinaryXml.Opaque1byteValue" _ _ MotorolaBinaryXml_Opaque1byteValue_class rfl rfl]
  py_run [onStream_set _ _ _ _ hk, hk, Dmr.Motorola.MotorolaBinaryXml.Opaque1byteValue.read, Dmr.Motorola.MotorolaBinaryXml.Opaque1byteValue.toPy]

@[py] theorem MotorolaBinaryXml_Opaque1byteValue_place (io parent root : Val) (b : Nat) (x : Dmr.Motorola.MotorolaBinaryXml.Opaque1byteValue) :
    place io parent root b x.toPy = (.obj b, placeObj io parent root b x.toPy) :=
  place_part _ _ _ _ _ _ (by decide)

theorem MotorolaBinaryXml_Uintvar_class : library.class "Motorola.MotorolaBinaryXml.Uintvar" = some Source.Motorola.MotorolaBinaryXml.Uintvar := class_at 26 _ MotorolaBinaryXml.file 6 Source.Motorola.MotorolaBinaryXml.Uintvar rfl

/-- okdmr/kaitai/motorola/motorola_binary_xml.py:127-146 against `Dmr.Motorola.MotorolaBinaryXml.Uintvar`. -/
@[py] theorem MotorolaBinaryXml_Uintvar_builds (n : Nat) (H : List Obj) (S : List Stream) (k : Nat) (hk : k < S.length) (s : Stream)
    (parent root : Val) : ((calls library (n + 3)).construct "Motorola.MotorolaBinaryXml.Uintvar" [.io k, parent, root]).run ⟨H, S.set k s⟩ =
      after Dmr.Motorola.MotorolaBinaryXml.Uintvar.read s (fun e s' => .raise e ⟨H, S.set k s'⟩)
        (built Dmr.Motorola.MotorolaBinaryXml.Uintvar.toPy k parent root H S) := by
  rw [construct_eq library _ "Motorola.MotorolaBinaryXml.Uintvar" _ _ MotorolaBinaryXml_Uintvar_class rfl rfl]
  py_run [onStream_set _ _ _ _ hk, hk, Dmr.Motorola.MotorolaBinaryXml.Uintvar.read, Dmr.Motorola.MotorolaBinaryXml.Uintvar.toPy]
  refine until_reads (p := H.length)
    (st := fun l s => ⟨H ++ ⟨"Motorola.MotorolaBinaryXml.Uintvar",
      [("_io", .io k), ("_parent", parent), ("_root", rootOf root H.length),
       ("payload", .list (itemValues (.io k) (.obj H.length) (rootOf root H.length) (H.length + 1) (l.map fun (y : Nat) => .int (y : Int))))]⟩ ::
        itemParts (.io k) (.obj H.length) (rootOf root H.length) (H.length + 1) (l.map fun (y : Nat) => .int (y : Int)), S.set k s⟩)
    (E := fun e s' => .raise e ⟨H, S.set k s'⟩) (fun e l s => by py_run [])
    (fun env s h => run_loopBound _ _ _ _ _ _ hk _ h.1 rfl)
    (fun env l s h => ?_) (fun env l s h => by py_run [])
    [("self", .obj H.length), ("i", .pv (.int 0))] s ⟨by py_run [], 0, by py_run []⟩ (by py_run [])
  obtain ⟨i, hi⟩ := h.2
  refine ⟨fun a => upsert "_" (.pv (.int (a : Int))) env, fun a => upsert "i" (.pv (.int (i + 1))) (upsert "_" (.pv (.int (a : Int))) env),
    fun a => h.upsert _ _ (by decide) (by decide), fun a => (h.upsert _ _ (by decide) (by decide)).next _, ?_⟩
  py_run [h.1, hi, onStream_set _ _ _ _ hk, var_upsert, after_isEof]
  py_run [ok_ite]

@[py] theorem MotorolaBinaryXml_Uintvar_place (io parent root : Val) (b : Nat) (x : Dmr.Motorola.MotorolaBinaryXml.Uintvar) :
    place io parent root b x.toPy = (.obj b, placeObj io parent root b x.toPy) :=
  place_part _ _ _ _ _ _ (by decide)

theorem MotorolaBinaryXml_ConstantDataTableReference_class : library.class "Motorola.MotorolaBinaryXml.ConstantDataTableReference" = some Source.Motorola.MotorolaBinaryXml.ConstantDataTableReference := class_at 26 _ MotorolaBinaryXml.file 8 Source.Motorola.MotorolaBinaryXml.ConstantDataTableReference rfl

/-- okdmr/kaitai/motorola/motorola_binary_xml.py:165-175 against `Dmr.Motorola.MotorolaBinaryXml.ConstantDataTableReference`. -/
@[py] theorem MotorolaBinaryXml_ConstantDataTableReference_builds (n : Nat) (H : List Obj) (S : List Stream) (k : Nat) (hk : k < S.length) (s : Stream)
    (parent root : Val) : ((calls library (n + 5)).construct "Motorola.MotorolaBinaryXml.ConstantDataTableReference" [.io k, parent, root]).run ⟨H, S.set k s⟩ =
      after Dmr.Motorola.MotorolaBinaryXml.ConstantDataTableReference.read s (fun e s' => .raise e ⟨H, S.set k s'⟩)
        (built Dmr.Motorola.MotorolaBinaryXml.ConstantDataTableReference.toPy k parent root H S) := by
  rw [construct_eq library _ "Motorola.MotorolaBinaryXml.ConstantDataTableReference" _ _ MotorolaBinaryXml_ConstantDataTableReference_class rfl rfl]
  py_run [onStream_set _ _ _ _ hk, hk, Dmr.Motorola.MotorolaBinaryXml.ConstantDataTableReference.read, Dmr.Motorola.MotorolaBinaryXml.ConstantDataTableReference.toPy]

@[py] theorem MotorolaBinaryXml_ConstantDataTableReference_place (io parent root : Val) (b : Nat) (x : Dmr.Motorola.MotorolaBinaryXml.ConstantDataTableReference) :
    place io parent root b x.toPy = (.obj b, placeObj io parent root b x.toPy) :=
  place_part _ _ _ _ _ _ (by decide)

theorem MotorolaBinaryXml_LrrpElement_class : library.class "Motorola.MotorolaBinaryXml.LrrpElement" = some Source.Motorola.MotorolaBinaryXml.LrrpElement := class_at 26 _ MotorolaBinaryXml.file 2 Source.Motorola.MotorolaBinaryXml.LrrpElement rfl

/-- okdmr/kaitai/motorola/motorola_binary_xml.py:67-90 against `Dmr.Motorola.MotorolaBinaryXml.LrrpElement`. -/
@[py] theorem MotorolaBinaryXml_LrrpElement_builds (n : Nat) (H : List Obj) (S : List Stream) (k : Nat) (hk : k < S.length) (s : Stream)
    (parent root : Val) : ((calls library (n + 7)).construct "Motorola.MotorolaBinaryXml.LrrpElement" [.io k, parent, root]).run ⟨H, S.set k s⟩ =
      after Dmr.Motorola.MotorolaBinaryXml.LrrpElement.read s (fun e s' => .raise e ⟨H, S.set k s'⟩)
        (built Dmr.Motorola.MotorolaBinaryXml.LrrpElement.toPy k parent root H S) := by
  rw [construct_eq library _ "Motorola.MotorolaBinaryXml.LrrpElement" _ _ MotorolaBinaryXml_LrrpElement_class rfl rfl]
  py_run [onStream_set _ _ _ _ hk, hk, Dmr.Motorola.MotorolaBinaryXml.LrrpElement.read, Dmr.Motorola.MotorolaBinaryXml.LrrpElement.toPy, Dmr.Motorola.MotorolaBinaryXml.LrrpElement.readLrrpElementData, Dmr.Motorola.MotorolaBinaryXml.LrrpElement.LrrpElementDataUnion.toPy]

@[py] theorem MotorolaBinaryXml_LrrpElement_place (io parent root : Val) (b : Nat) (x : Dmr.Motorola.MotorolaBinaryXml.LrrpElement) :
    place io parent root b x.toPy = (.obj b, placeObj io parent root b x.toPy) :=
  place_part _ _ _ _ _ _ (by decide)

theorem MotorolaBinaryXml_LrrpImmediateRequestNcdt_class : library.class "Motorola.MotorolaBinaryXml.LrrpImmediateRequestNcdt" = some Source.Motorola.MotorolaBinaryXml.LrrpImmediateRequestNcdt := class_at 26 _ MotorolaBinaryXml.file 0 Source.Motorola.MotorolaBinaryXml.LrrpImmediateRequestNcdt rfl

/-- okdmr/kaitai/motorola/motorola_binary_xml.py:47-55 against `Dmr.Motorola.MotorolaBinaryXml.LrrpImmediateRequestNcdt`. -/
@[py] theorem MotorolaBinaryXml_LrrpImmediateRequestNcdt_builds (n : Nat) (H : List Obj) (S : List Stream) (k : Nat) (hk : k < S.length) (s : Stream)
    (parent root : Val) : ((calls library (n + 9)).construct "Motorola.MotorolaBinaryXml.LrrpImmediateRequestNcdt" [.io k, parent, root]).run ⟨H, S.set k s⟩ =
      after Dmr.Motorola.MotorolaBinaryXml.LrrpImmediateRequestNcdt.read s (fun e s' => .raise e ⟨H, S.set k s'⟩)
        (built Dmr.Motorola.MotorolaBinaryXml.LrrpImmediateRequestNcdt.toPy k parent root H S) := by
  rw [construct_eq library _ "Motorola.MotorolaBinaryXml.LrrpImmediateRequestNcdt" _ _ MotorolaBinaryXml_LrrpImmediateRequestNcdt_class rfl rfl]
  py_run [onStream_set _ _ _ _ hk, hk, Dmr.Motorola.MotorolaBinaryXml.LrrpImmediateRequestNcdt.read, Dmr.Motorola.MotorolaBinaryXml.LrrpImmediateRequestNcdt.toPy]

@[py] theorem MotorolaBinaryXml_LrrpImmediateRequestNcdt_place (io parent root : Val) (b : Nat) (x : Dmr.Motorola.MotorolaBinaryXml.LrrpImmediateRequestNcdt) :
    place io parent root b x.toPy = (.obj b, placeObj io parent root b x.toPy) :=
  place_part _ _ _ _ _ _ (by decide)

theorem MotorolaBinaryXml_Opaque3byteValue_class : library.class "Motorola.MotorolaBinaryXml.Opaque3byteValue" = some Source.Motorola.MotorolaBinaryXml.Opaque3byteValue := class_at 26 _ MotorolaBinaryXml.file 1 Source.Motorola.MotorolaBinaryXml.Opaque3byteValue rfl

/-- okdmr/kaitai/motorola/motorola_binary_xml.py:57-65 against `Dmr.Motorola.MotorolaBinaryXml.Opaque3byteValue`. -/
@[py] theorem MotorolaBinaryXml_Opaque3byteValue_builds (n : Nat) (H : List Obj) (S : List Stream) (k : Nat) (hk : k < S.length) (s : Stream)
    (parent root : Val) : ((calls library (n + 3)).construct "Motorola.MotorolaBinaryXml.Opaque3byteValue" [.io k, parent, root]).run ⟨H, S.set k s⟩ =
      after Dmr.Motorola.MotorolaBinaryXml.Opaque3byteValue.read s (fun e s' => .raise e ⟨H, S.set k s'⟩)
        (built Dmr.Motorola.MotorolaBinaryXml.Opaque3byteValue.toPy k parent root H S) := by
  rw [construct_eq library _ "Motorola.MotorolaBinaryXml.Opaque3byteValue" _ _ MotorolaBinaryXml_Opaque3byteValue_class rfl rfl]
  py_run [onStream_set _ _ _ _ hk, hk, Dmr.Motorola.MotorolaBinaryXml.Opaque3byteValue.read, Dmr.Motorola.MotorolaBinaryXml.Opaque3byteValue.toPy]

@[py] theorem MotorolaBinaryXml_Opaque3byteValue_place (io parent root : Val) (b : Nat) (x : Dmr.Motorola.MotorolaBinaryXml.Opaque3byteValue) :
    place io parent root b x.toPy = (.obj b, placeObj io parent root b x.toPy) :=
  place_part _ _ _ _ _ _ (by decide)

theorem MotorolaBinaryXml_Sintvar_class : library.class "Motorola.MotorolaBinaryXml.Sintvar" = some Source.Motorola.MotorolaBinaryXml.Sintvar := class_at 26 _ MotorolaBinaryXml.file 12 Source.Motorola.MotorolaBinaryXml.Sintvar rfl

/-- okdmr/kaitai/motorola/motorola_binary_xml.py:220-240 against `Dmr.Motorola.MotorolaBinaryXml.Sintvar`. -/
@[py] theorem MotorolaBinaryXml_Sintvar_builds (n : Nat) (H : List Obj) (S : List Stream) (k : Nat) (hk : k < S.length) (s : Stream)
    (parent root : Val) : ((calls library (n + 3)).construct "Motorola.MotorolaBinaryXml.Sintvar" [.io k, parent, root]).run ⟨H, S.set k s⟩ =
      after Dmr.Motorola.MotorolaBinaryXml.Sintvar.read s (fun e s' => .raise e ⟨H, S.set k s'⟩)
        (built Dmr.Motorola.MotorolaBinaryXml.Sintvar.toPy k parent root H S) := by
  rw [construct_eq library _ "Motorola.MotorolaBinaryXml.Sintvar" _ _ MotorolaBinaryXml_Sintvar_class rfl rfl]
  py_run [onStream_set _ _ _ _ hk, hk, Dmr.Motorola.MotorolaBinaryXml.Sintvar.read, Dmr.Motorola.MotorolaBinaryXml.Sintvar.toPy]
  refine until_reads (p := H.length)
    (st := fun l s => ⟨H ++ ⟨"Motorola.MotorolaBinaryXml.Sintvar",
      [("_io", .io k), ("_parent", parent), ("_root", rootOf root H.length),
       ("payload", .list (itemValues (.io k) (.obj H.length) (rootOf root H.length) (H.length + 1) (l.map fun (y : Nat) => .int (y : Int))))]⟩ ::
        itemParts (.io k) (.obj H.length) (rootOf root H.length) (H.length + 1) (l.map fun (y : Nat) => .int (y : Int)), S.set k s⟩)
    (E := fun e s' => .raise e ⟨H, S.set k s'⟩) (fun e l s => by py_run [])
    (fun env s h => run_loopBound _ _ _ _ _ _ hk _ h.1 rfl)
    (fun env l s h => ?_) (fun env l s h => by py_run [])
    [("self", .obj H.length), ("i", .pv (.int 0))] s ⟨by py_run [], 0, by py_run []⟩ (by py_run [])
  obtain ⟨i, hi⟩ := h.2
  refine ⟨fun a => upsert "_" (.pv (.int (a : Int))) env, fun a => upsert "i" (.pv (.int (i + 1))) (upsert "_" (.pv (.int (a : Int))) env),
    fun a => h.upsert _ _ (by decide) (by decide), fun a => (h.upsert _ _ (by decide) (by decide)).next _, ?_⟩
  py_run [h.1, hi, onStream_set _ _ _ _ hk, var_upsert, after_isEof]
  py_run [ok_ite]

@[py] theorem MotorolaBinaryXml_Sintvar_place (io parent root : Val) (b : Nat) (x : Dmr.Motorola.MotorolaBinaryXml.Sintvar) :
    place io parent root b x.toPy = (.obj b, placeObj io parent root b x.toPy) :=
  place_part _ _ _ _ _ _ (by decide)

theorem MotorolaBinaryXml_Sfloatvar_class : library.class "Motorola.MotorolaBinaryXml.Sfloatvar" = some Source.Motorola.MotorolaBinaryXml.Sfloatvar := class_at 26 _ MotorolaBinaryXml.file 3 Source.Motorola.MotorolaBinaryXml.Sfloatvar rfl

/-- okdmr/kaitai/motorola/motorola_binary_xml.py:92-105 against `Dmr.Motorola.MotorolaBinaryXml.Sfloatvar`. -/
@[py] theorem MotorolaBinaryXml_Sfloatvar_builds (n : Nat) (H : List Obj) (S : List Stream) (k : Nat) (hk : k < S.length) (s : Stream)
    (parent root : Val) : ((calls library (n + 5)).construct "Motorola.MotorolaBinaryXml.Sfloatvar" [.io k, parent, root]).run ⟨H, S.set k s⟩ =
      after Dmr.Motorola.MotorolaBinaryXml.Sfloatvar.read s (fun e s' => .raise e ⟨H, S.set k s'⟩)
        (built Dmr.Motorola.MotorolaBinaryXml.Sfloatvar.toPy k parent root H S) := by
  rw [construct_eq library _ "Motorola.MotorolaBinaryXml.Sfloatvar" _ _ MotorolaBinaryXml_Sfloatvar_class rfl rfl]
  py_run [onStream_set _ _ _ _ hk, hk, Dmr.Motorola.MotorolaBinaryXml.Sfloatvar.read, Dmr.Motorola.MotorolaBinaryXml.Sfloatvar.toPy]

@[py] theorem MotorolaBinaryXml_Sfloatvar_place (io parent root : Val) (b : Nat) (x : Dmr.Motorola.MotorolaBinaryXml.Sfloatvar) :
    place io parent root b x.toPy = (.obj b, placeObj io parent root b x.toPy) :=
  place_part _ _ _ _ _ _ (by decide)

theorem MotorolaBinaryXml_Opaque5byteValue_class : library.class "Motorola.MotorolaBinaryXml.Opaque5byteValue" = some Source.Motorola.MotorolaBinaryXml.Opaque5byteValue := class_at 26 _ MotorolaBinaryXml.file 4 Source.Motorola.MotorolaBinaryXml.Opaque5byteValue rfl

/-- okdmr/kaitai/motorola/motorola_binary_xml.py:107-115 against `Dmr.Motorola.MotorolaBinaryXml.Opaque5byteValue`. -/
@[py] theorem MotorolaBinaryXml_Opaque5byteValue_builds (n : Nat) (H : List Obj) (S : List Stream) (k : Nat) (hk : k < S.length) (s : Stream)
    (parent root : Val) : ((calls library (n + 3)).construct "Motorola.MotorolaBinaryXml.Opaque5byteValue" [.io k, parent, root]).run ⟨H, S.set k s⟩ =
      after Dmr.Motorola.MotorolaBinaryXml.Opaque5byteValue.read s (fun e s' => .raise e ⟨H, S.set k s'⟩)
        (built Dmr.Motorola.MotorolaBinaryXml.Opaque5byteValue.toPy k parent root H S) := by
  rw [construct_eq library _ "Motorola.MotorolaBinaryXml.Opaque5byteValue" _ _ MotorolaBinaryXml_Opaque5byteValue_class rfl rfl]
  py_run [onStream_set _ _ _ _ hk, hk, Dmr.Motorola.MotorolaBinaryXml.Opaque5byteValue.read, Dmr.Motorola.MotorolaBinaryXml.Opaque5byteValue.toPy]

@[py] theorem MotorolaBinaryXml_Opaque5byteValue_place (io parent root : Val) (b : Nat) (x : Dmr.Motorola.MotorolaBinaryXml.Opaque5byteValue) :
    place io parent root b x.toPy = (.obj b, placeObj io parent root b x.toPy) :=
  place_part _ _ _ _ _ _ (by decide)

theorem MotorolaBinaryXml_Ufloatvar_class : library.class "Motorola.MotorolaBinaryXml.Ufloatvar" = some Source.Motorola.MotorolaBinaryXml.Ufloatvar := class_at 26 _ MotorolaBinaryXml.file 7 Source.Motorola.MotorolaBinaryXml.Ufloatvar rfl

/-- okdmr/kaitai/motorola/motorola_binary_xml.py:148-163 against `Dmr.Motorola.MotorolaBinaryXml.Ufloatvar`. -/
@[py] theorem MotorolaBinaryXml_Ufloatvar_builds (n : Nat) (H : List Obj) (S : List Stream) (k : Nat) (hk : k < S.length) (s : Stream)
    (parent root : Val) : ((calls library (n + 5)).construct "Motorola.MotorolaBinaryXml.Ufloatvar" [.io k, parent, root]).run ⟨H, S.set k s⟩ =
      after Dmr.Motorola.MotorolaBinaryXml.Ufloatvar.read s (fun e s' => .raise e ⟨H, S.set k s'⟩)
        (built Dmr.Motorola.MotorolaBinaryXml.Ufloatvar.toPy k parent root H S) := by
  rw [construct_eq library _ "Motorola.MotorolaBinaryXml.Ufloatvar" _ _ MotorolaBinaryXml_Ufloatvar_class rfl rfl]
  py_run [onStream_set _ _ _ _ hk, hk, Dmr.Motorola.MotorolaBinaryXml.Ufloatvar.read, Dmr.Motorola.MotorolaBinaryXml.Ufloatvar.toPy]

@[py] theorem MotorolaBinaryXml_Ufloatvar_place (io parent root : Val) (b : Nat) (x : Dmr.Motorola.MotorolaBinaryXml.Ufloatvar) :
    place io parent root b x.toPy = (.obj b, placeObj io parent root b x.toPy) :=
  place_part _ _ _ _ _ _ (by decide)

theorem MotorolaBinaryXml_MbxmlDocument_class : library.class "Motorola.MotorolaBinaryXml.MbxmlDocument" = some Source.Motorola.MotorolaBinaryXml.MbxmlDocument := class_at 26 _ MotorolaBinaryXml.file 9 Source.Motorola.MotorolaBinaryXml.MbxmlDocument rfl

/-- okdmr/kaitai/motorola/motorola_binary_xml.py:177-197 against `Dmr.Motorola.MotorolaBinaryXml.MbxmlDocument`. -/
@[py] theorem MotorolaBinaryXml_MbxmlDocument_builds (n : Nat) (H : List Obj) (S : List Stream) (k : Nat) (hk : k < S.length) (s : Stream)
    (parent root : Val) : ((calls library (n + 11)).construct "Motorola.MotorolaBinaryXml.MbxmlDocument" [.io k, parent, root]).run ⟨H, S.set k s⟩ =
      after Dmr.Motorola.MotorolaBinaryXml.MbxmlDocument.read s (fun e s' => .raise e ⟨H, S.set k s'⟩)
        (built Dmr.Motorola.MotorolaBinaryXml.MbxmlDocument.toPy k parent root H S) := by
  rw [construct_eq library _ "Motorola.MotorolaBinaryXml.MbxmlDocument" _ _ MotorolaBinaryXml_MbxmlDocument_class rfl rfl]
  py_run [onStream_set _ _ _ _ hk, hk, Dmr.Motorola.MotorolaBinaryXml.MbxmlDocument.read, Dmr.Motorola.MotorolaBinaryXml.MbxmlDocument.toPy, Dmr.Motorola.MotorolaBinaryXml.MbxmlDocument.readDocumentData, Dmr.Motorola.MotorolaBinaryXml.MbxmlDocument.DocumentDataUnion.toPy]

@[py] theorem MotorolaBinaryXml_MbxmlDocument_place (io parent root : Val) (b : Nat) (x : Dmr.Motorola.MotorolaBinaryXml.MbxmlDocument) :
    place io parent root b x.toPy = (.obj b, placeObj io parent root b x.toPy) :=
  place_part _ _ _ _ _ _ (by decide)

theorem MotorolaBinaryXml_Opaque2byteValue_class : library.class "Motorola.MotorolaBinaryXml.Opaque2byteValue" = some Source.Motorola.MotorolaBinaryXml.Opaque2byteValue := class_at 26 _ MotorolaBinaryXml.file 11 Source.Motorola.MotorolaBinaryXml.Opaque2byteValue rfl

/-- okdmr/kaitai/motorola/motorola_binary_xml.py:210-218 against `Dmr.Motorola.MotorolaBinaryXml.Opaque2byteValue`. -/
@[py] theorem MotorolaBinaryXml_Opaque2byteValue_builds (n : Nat) (H : List Obj) (S : List Stream) (k : Nat) (hk : k < S.length) (s : Stream)
    (parent root : Val) : ((calls library (n + 3)).construct "Motorola.MotorolaBinaryXml.Opaque2byteValue" [.io k, parent, root]).run ⟨H, S.set k s⟩ =
      after Dmr.Motorola.MotorolaBinaryXml.Opaque2byteValue.read s (fun e s' => .raise e ⟨H, S.set k s'⟩)
        (built Dmr.Motorola.MotorolaBinaryXml.Opaque2byteValue.toPy k parent root H S) := by
  rw [construct_eq library _ "Motorola.MotorolaBinaryXml.Opaque2byteValue" _ _ MotorolaBinaryXml_Opaque2byteValue_class rfl rfl]
  py_run [onStream_set _ _ _ _ hk, hk, Dmr.Motorola.MotorolaBinaryXml.Opaque2byteValue.read, Dmr.Motorola.MotorolaBinaryXml.Opaque2byteValue.toPy]

@[py] theorem MotorolaBinaryXml_Opaque2byteValue_place (io parent root : Val) (b : Nat) (x : Dmr.Motorola.MotorolaBinaryXml.Opaque2byteValue) :
    place io parent root b x.toPy = (.obj b, placeObj io parent root b x.toPy) :=
  place_part _ _ _ _ _ _ (by decide)

theorem MotorolaBinaryXml_Opaque4byteValue_class : library.class "Motorola.MotorolaBinaryXml.Opaque4byteValue" = some Source.Motorola.MotorolaBinaryXml.Opaque4byteValue := class_at 26 _ MotorolaBinaryXml.file 13 Source.Motorola.MotorolaBinaryXml.Opaque4byteValue rfl

/-- okdmr/kaitai/motorola/motorola_binary_xml.py:242-250 against `Dmr.Motorola.MotorolaBinaryXml.Opaque4byteValue`. -/
@[py] theorem MotorolaBinaryXml_Opaque4byteValue_builds (n : Nat) (H : List Obj) (S : List Stream) (k : Nat) (hk : k < S.length) (s : Stream)
    (parent root : Val) : ((calls library (n + 3)).construct "Motorola.MotorolaBinaryXml.Opaque4byteValue" [.io k, parent, root]).run ⟨H, S.set k s⟩ =
      after Dmr.Motorola.MotorolaBinaryXml.Opaque4byteValue.read s (fun e s' => .raise e ⟨H, S.set k s'⟩)
        (built Dmr.Motorola.MotorolaBinaryXml.Opaque4byteValue.toPy k parent root H S) := by
  rw [construct_eq library _ "Motorola.MotorolaBinaryXml.Opaque4byteValue" _ _ MotorolaBinaryXml_Opaque4byteValue_class rfl rfl]
  py_run [onStream_set _ _ _ _ hk, hk, Dmr.Motorola.MotorolaBinaryXml.Opaque4byteValue.read, Dmr.Motorola.MotorolaBinaryXml.Opaque4byteValue.toPy]

@[py] theorem MotorolaBinaryXml_Opaque4byteValue_place (io parent root : Val) (b : Nat) (x : Dmr.Motorola.MotorolaBinaryXml.Opaque4byteValue) :
    place io parent root b x.toPy = (.obj b, placeObj io parent root b x.toPy) :=
  place_part _ _ _ _ _ _ (by decide)

theorem MotorolaBinaryXml_class : library.class "Motorola.MotorolaBinaryXml" = some Source.Motorola.MotorolaBinaryXml := class_at 26 _ MotorolaBinaryXml.file 14 Source.Motorola.MotorolaBinaryXml rfl

/-- okdmr/kaitai/motorola/motorola_binary_xml.py:15-250 against `Dmr.Motorola.MotorolaBinaryXml`. -/
@[py] theorem MotorolaBinaryXml_builds (n : Nat) (H : List Obj) (S : List Stream) (k : Nat) (hk : k < S.length) (s : Stream)
    (parent root : Val) : ((calls library (n + 13)).construct "Motorola.MotorolaBinaryXml" [.io k, parent, root]).run ⟨H, S.set k s⟩ =
      after Dmr.Motorola.MotorolaBinaryXml.read s (fun e s' => .raise e ⟨H, S.set k s'⟩)
        (built Dmr.Motorola.MotorolaBinaryXml.toPy k parent root H S) := by
  rw [construct_eq library _ "Motorola.MotorolaBinaryXml" _ _ MotorolaBinaryXml_class rfl rfl]
  py_run [onStream_set _ _ _ _ hk, hk, Dmr.Motorola.MotorolaBinaryXml.read, Dmr.Motorola.MotorolaBinaryXml.toPy]
  refine until_reads (p := H.length)
    (st := fun l s => ⟨H ++ ⟨"Motorola.MotorolaBinaryXml",
      [("_io", .io k), ("_parent", parent), ("_root", rootOf root H.length),
       ("documents", .list (itemValues (.io k) (.obj H.length) (rootOf root H.length) (H.length + 1) (l.map fun y => y.toPy)))]⟩ ::
        itemParts (.io k) (.obj H.length) (rootOf root H.length) (H.length + 1) (l.map fun y => y.toPy), S.set k s⟩)
    (E := fun e s' => .raise e ⟨H, S.set k s'⟩) (fun e l s => by py_run [])
    (fun env s h => run_loopBound _ _ _ _ _ _ hk _ h.1 rfl)
    (fun env l s h => ?_) (fun env l s h => by py_run [])
    [("self", .obj H.length), ("i", .pv (.int 0))] s ⟨by py_run [], 0, by py_run []⟩ (by py_run [])
  obtain ⟨i, hi⟩ := h.2
  refine ⟨fun a => upsert "_" (.obj (H.length + (1 + objectsOf (l.map fun y => y.toPy)))) env, fun a => upsert "i" (.pv (.int (i + 1))) (upsert "_" (.obj (H.length + (1 + objectsOf (l.map fun y => y.toPy)))) env),
    fun a => h.upsert _ _ (by decide) (by decide), fun a => (h.upsert _ _ (by decide) (by decide)).next _, ?_⟩
  py_run [h.1, hi, onStream_set _ _ _ _ hk, var_upsert, after_isEof, hk]
  py_run [ok_ite]

@[py] theorem MotorolaBinaryXml_short (n k : Nat) : (calls library (n + 13)).construct "Motorola.MotorolaBinaryXml" [.io k] =
    (calls library (n + 13)).construct "Motorola.MotorolaBinaryXml" [.io k, .pv .none, .pv .none] := construct_short _ _ _ _ MotorolaBinaryXml_class rfl _

@[py] theorem MotorolaBinaryXml_place (io parent root : Val) (b : Nat) (x : Dmr.Motorola.MotorolaBinaryXml) :
    place io parent root b x.toPy = (.obj b, placeObj io (.pv .none) (.obj b) b x.toPy) :=
  place_file _ _ _ _ _ _ (by decide)

end Dmr.Py.ConformMotorola
