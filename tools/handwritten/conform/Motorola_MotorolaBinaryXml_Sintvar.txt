/-- okdmr/kaitai/motorola/motorola_binary_xml.ksy type `sintvar` against `Dmr.Motorola.MotorolaBinaryXml.Sintvar`. -/
@[ksy ↓] theorem MotorolaBinaryXml_Sintvar_conforms (n : Nat) (sc : Scope) :
    parse (n + 1) sc Motorola.MotorolaBinaryXml.Sintvar =
      (fun x => view (Dmr.Motorola.MotorolaBinaryXml.Sintvar.toPy x)) <$> Dmr.Motorola.MotorolaBinaryXml.Sintvar.read := by
  rw [parse_succ]
  ksy_simp [Dmr.Motorola.MotorolaBinaryXml.Sintvar.read, Dmr.Motorola.MotorolaBinaryXml.Sintvar.toPy, same_cast_0]
