/-- okdmr/kaitai/motorola/motorola_binary_xml.py:220-240 against `Dmr.Motorola.MotorolaBinaryXml.Sintvar`. -/
@[py] theorem MotorolaBinaryXml_Sintvar_builds (n : Nat) (H : List Obj) (S : List Stream) (k : Nat) (hk : k < S.length) (s : Stream)
    (parent root : Val) : ((calls library (n + 3)).construct "Motorola.MotorolaBinaryXml.Sintvar" [.io k, parent, root]).run ⟨H, S.set k s⟩ =
      after Dmr.Motorola.MotorolaBinaryXml.Sintvar.read s (fun e s' => .raise e ⟨H, S.set k s'⟩)
        (built Dmr.Motorola.MotorolaBinaryXml.Sintvar.toPy k parent root H S) := by
  rw [construct_eq library _ "Motorola.MotorolaBinaryXml.Sintvar" _ _ MotorolaBinaryXml_Sintvar_class rfl rfl]
  py_run [onStream_set _ _ _ _ hk, hk, Dmr.Motorola.MotorolaBinaryXml.Sintvar.read, Dmr.Motorola.MotorolaBinaryXml.Sintvar.toPy]
  refine until_reads (p := H.length)
    (st := fun l s => ⟨H ++ ⟨"Motorola.MotorolaBinaryXml.Sintvar",
      [("_io", .io k), ("_parent", parent), ("_root", rootOf root H.length),
       ("payload", .list (itemValues (.io k) (.obj H.length) (rootOf root H.length) (H.length + 1) (l.map fun (y : Nat) => .int (y : Int))))]⟩ ::
        itemParts (.io k) (.obj H.length) (rootOf root H.length) (H.length + 1) (l.map fun (y : Nat) => .int (y : Int)), S.set k s⟩)
    (E := fun e s' => .raise e ⟨H, S.set k s'⟩) (fun e l s => by py_run [])
    (fun env s h => run_loopBound _ _ _ _ _ _ hk _ h.1 rfl)
    (fun env l s h => ?_) (fun env l s h => by py_run [])
    [("self", .obj H.length), ("i", .pv (.int 0))] s ⟨by py_run [], 0, by py_run []⟩ (by py_run [])
  obtain ⟨i, hi⟩ := h.2
  refine ⟨fun a => upsert "_" (.pv (.int (a : Int))) env, fun a => upsert "i" (.pv (.int (i + 1))) (upsert "_" (.pv (.int (a : Int))) env),
    fun a => h.upsert _ _ (by decide) (by decide), fun a => (h.upsert _ _ (by decide) (by decide)).next _, ?_⟩
  py_run [h.1, hi, onStream_set _ _ _ _ hk, var_upsert, after_isEof]
  py_run [ok_ite]
