/-- okdmr/kaitai/homebrew/homebrew2015.ksy against `Dmr.Homebrew.Homebrew2015`. -/
@[ksy ↓] theorem Homebrew2015_conforms (n : Nat) (sc : Scope) :
    parse (n + 3) sc Homebrew.Homebrew2015 = (fun x => view (Dmr.Homebrew.Homebrew2015.toPy x)) <$> Dmr.Homebrew.Homebrew2015.read := by
  have hr (attrs sc) : parse (n + 2) ⟨⟨Homebrew.Homebrew2015, PyVal.optAttr "command_prefix" (some attrs)⟩, sc,
      ⟨Homebrew.Homebrew2015, PyVal.optAttr "command_prefix" (some attrs)⟩⟩ Homebrew.Homebrew2015.TypeRepeaterConfigurationOrClosing = _ :=
    Homebrew2015_TypeRepeaterConfigurationOrClosing_conforms n _ rfl rfl
  rw [parse_succ]
  ksy_simp [Dmr.Homebrew.Homebrew2015.read, Dmr.Homebrew.Homebrew2015.toPy, hr]
  refine rd_bind_congr fun on => ?_
  by_cases h : on ∈ ["RPTL".toList, "MSTN".toList, "MSTA".toList, "RPTK".toList, "MSTP".toList, "RPTP".toList, "RPTC".toList, "MSTC".toList, "DMRD".toList]
  · simp only [List.mem_cons, List.not_mem_nil, or_false] at h
    rcases h with rfl | rfl | rfl | rfl | rfl | rfl | rfl | rfl | rfl <;>
      ksy_simp [Dmr.Homebrew.Homebrew2015.readCommandData, Dmr.Homebrew.Homebrew2015.CommandDataUnion.toPy, String.toList_inj]
  · simp only [List.mem_cons, List.not_mem_nil, or_false, not_or] at h
    obtain ⟨h0, h1, h2, h3, h4, h5, h6, h7, h8⟩ := h
    ksy_simp [Dmr.Homebrew.Homebrew2015.readCommandData, h0, h1, h2, h3, h4, h5, h6, h7, h8]
