/-- okdmr/kaitai/homebrew/homebrew2015.ksy instance `fifth_letter` of the message against the property of `Dmr.Homebrew.Homebrew2015` on its first access. -/
@[ksy ↓] theorem Homebrew2015_fifth_letter (n : Nat) (attrs : List (String × PyVal)) (root : Frame)
    (ht : root.type.instances.lookup "fifth_letter" = some (.at (.int 4) (.str (.int 1) .ascii) none)) :
    inst (n + 1) root root "fifth_letter" = PyVal.str <$> Dmr.Homebrew.Homebrew2015.computeFifthLetter := by
  rw [inst_at _ _ _ _ _ _ ht]
  ksy_simp [Dmr.Homebrew.Homebrew2015.computeFifthLetter]

/-- okdmr/kaitai/homebrew/homebrew2015.ksy type `type_repeater_configuration_or_closing`, in a message of the whole type, against
`Dmr.Homebrew.Homebrew2015.TypeRepeaterConfigurationOrClosing`. -/
theorem Homebrew2015_TypeRepeaterConfigurationOrClosing_conforms (n : Nat) (sc : Scope)
    (ht : sc.root.type.instances.lookup "fifth_letter" = some (.at (.int 4) (.str (.int 1) .ascii) none))
    (ha : sc.root.attrs.lookup "fifth_letter" = none) :
    parse (n + 2) sc Homebrew.Homebrew2015.TypeRepeaterConfigurationOrClosing =
      (fun x => view (Dmr.Homebrew.Homebrew2015.TypeRepeaterConfigurationOrClosing.toPy x)) <$> Dmr.Homebrew.Homebrew2015.TypeRepeaterConfigurationOrClosing.read := by
  rw [parse_succ]
  ksy_simp [Dmr.Homebrew.Homebrew2015.TypeRepeaterConfigurationOrClosing.read, Dmr.Homebrew.Homebrew2015.TypeRepeaterConfigurationOrClosing.toPy, ha, Homebrew2015_fifth_letter _ [] _ ht,
    Dmr.Homebrew.Homebrew2015.TypeRepeaterConfigurationOrClosing.readData]
  refine rd_bind_congr fun letter => ?_
  split <;> ksy_simp [Dmr.Homebrew.Homebrew2015.TypeRepeaterConfigurationOrClosing.DataUnion.toPy]
