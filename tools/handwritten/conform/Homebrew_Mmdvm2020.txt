/-- okdmr/kaitai/homebrew/mmdvm2020.ksy against `Dmr.Homebrew.Mmdvm2020`. -/
@[ksy ↓] theorem Mmdvm2020_conforms (n : Nat) (sc : Scope) :
    parse (n + 3) sc Homebrew.Mmdvm2020 = (fun x => view (Dmr.Homebrew.Mmdvm2020.toPy x)) <$> Dmr.Homebrew.Mmdvm2020.read := by
  have hr (attrs sc) : parse (n + 2) ⟨⟨Homebrew.Mmdvm2020, PyVal.optAttr "command_prefix" (some attrs)⟩, sc,
      ⟨Homebrew.Mmdvm2020, PyVal.optAttr "command_prefix" (some attrs)⟩⟩ Homebrew.Mmdvm2020.TypeRepeaterConfigurationOrClosing = _ :=
    Mmdvm2020_TypeRepeaterConfigurationOrClosing_conforms n _ rfl rfl
  rw [parse_succ]
  ksy_simp [Dmr.Homebrew.Mmdvm2020.read, Dmr.Homebrew.Mmdvm2020.toPy, hr]
  refine rd_bind_congr fun on => ?_
  by_cases h : on ∈ ["DMRA".toList, "DMRG".toList, "DMRD".toList, "MSTC".toList, "MSTP".toList, "MSTN".toList, "RPTP".toList, "RPTO".toList, "RPTL".toList, "RPTA".toList, "RPTK".toList, "RPTC".toList, "RPTS".toList]
  · simp only [List.mem_cons, List.not_mem_nil, or_false] at h
    rcases h with rfl | rfl | rfl | rfl | rfl | rfl | rfl | rfl | rfl | rfl | rfl | rfl | rfl <;>
      ksy_simp [Dmr.Homebrew.Mmdvm2020.readCommandData, Dmr.Homebrew.Mmdvm2020.CommandDataUnion.toPy, String.toList_inj]
  · simp only [List.mem_cons, List.not_mem_nil, or_false, not_or] at h
    obtain ⟨h0, h1, h2, h3, h4, h5, h6, h7, h8, h9, h10, h11, h12⟩ := h
    ksy_simp [Dmr.Homebrew.Mmdvm2020.readCommandData, h0, h1, h2, h3, h4, h5, h6, h7, h8, h9, h10, h11, h12]
