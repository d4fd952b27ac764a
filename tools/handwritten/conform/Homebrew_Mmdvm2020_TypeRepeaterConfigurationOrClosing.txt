/-- okdmr/kaitai/homebrew/mmdvm2020.ksy instance `fifth_letter` of the message against the property of `Dmr.Homebrew.Mmdvm2020` on its first access. -/
@[ksy ↓] theorem Mmdvm2020_fifth_letter (n : Nat) (attrs : List (String × PyVal)) (root : Frame)
    (ht : root.type.instances.lookup "fifth_letter" = some (.at (.int 4) (.str (.int 1) .ascii) none)) :
    inst (n + 1) root root "fifth_letter" = PyVal.str <$> Dmr.Homebrew.Mmdvm2020.computeFifthLetter := by
  rw [inst_at _ _ _ _ _ _ ht]
  ksy_simp [Dmr.Homebrew.Mmdvm2020.computeFifthLetter]

/-- okdmr/kaitai/homebrew/mmdvm2020.ksy type `type_repeater_configuration_or_closing`, in a message of the whole type, against
`Dmr.Homebrew.Mmdvm2020.TypeRepeaterConfigurationOrClosing`. -/
theorem Mmdvm2020_TypeRepeaterConfigurationOrClosing_conforms (n : Nat) (sc : Scope)
    (ht : sc.root.type.instances.lookup "fifth_letter" = some (.at (.int 4) (.str (.int 1) .ascii) none))
    (ha : sc.root.attrs.lookup "fifth_letter" = none) :
    parse (n + 2) sc Homebrew.Mmdvm2020.TypeRepeaterConfigurationOrClosing =
      (fun x => view (Dmr.Homebrew.Mmdvm2020.TypeRepeaterConfigurationOrClosing.toPy x)) <$> Dmr.Homebrew.Mmdvm2020.TypeRepeaterConfigurationOrClosing.read := by
  rw [parse_succ]
  ksy_simp [Dmr.Homebrew.Mmdvm2020.TypeRepeaterConfigurationOrClosing.read, Dmr.Homebrew.Mmdvm2020.TypeRepeaterConfigurationOrClosing.toPy, ha, Mmdvm2020_fifth_letter _ [] _ ht,
    Dmr.Homebrew.Mmdvm2020.TypeRepeaterConfigurationOrClosing.readData]
  refine rd_bind_congr fun letter => ?_
  split <;> ksy_simp [Dmr.Homebrew.Mmdvm2020.TypeRepeaterConfigurationOrClosing.DataUnion.toPy]
