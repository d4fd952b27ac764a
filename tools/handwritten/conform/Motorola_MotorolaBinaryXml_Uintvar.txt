/-- okdmr/kaitai/motorola/motorola_binary_xml.ksy type `uintvar` against `Dmr.Motorola.MotorolaBinaryXml.Uintvar`. -/
@[ksy ↓] theorem MotorolaBinaryXml_Uintvar_conforms (n : Nat) (sc : Scope) :
    parse (n + 1) sc Motorola.MotorolaBinaryXml.Uintvar =
      (fun x => view (Dmr.Motorola.MotorolaBinaryXml.Uintvar.toPy x)) <$> Dmr.Motorola.MotorolaBinaryXml.Uintvar.read := by
  rw [parse_succ]
  ksy_simp [Dmr.Motorola.MotorolaBinaryXml.Uintvar.read, Dmr.Motorola.MotorolaBinaryXml.Uintvar.toPy, same_cast_0]
