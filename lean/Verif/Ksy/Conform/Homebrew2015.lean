import Verif.Ksy.Conform.Base
/-
Generated by tools/mkconform.py: the schema of `Homebrew2015` against the model of the Python classes.
-/

set_option linter.unusedSimpArgs false
set_option maxHeartbeats 1000000

namespace Dmr.Ksy.Homebrew

@[ksy] theorem resolve_Homebrew2015_Timeslots (v : Nat) : Homebrew.Homebrew2015.Timeslots.resolve v = EnumVal.toPy "Timeslots" (resolveEnum Dmr.Homebrew.Homebrew2015.Timeslots v) :=
  resolve_eq _ (by decide) v

@[ksy ↓] theorem read_Homebrew2015_Timeslots_b1 (ev sub) : readTy ev sub (.bitsEnum 1 Homebrew.Homebrew2015.Timeslots) =
    asEnum Dmr.Homebrew.Homebrew2015.Timeslots (readBitsIntBe 1) >>= fun e => pure (some (EnumVal.toPy "Timeslots" e)) :=
  enum_bits resolve_Homebrew2015_Timeslots ev sub 1

@[ksy] theorem resolve_Homebrew2015_CallTypes (v : Nat) : Homebrew.Homebrew2015.CallTypes.resolve v = EnumVal.toPy "CallTypes" (resolveEnum Dmr.Homebrew.Homebrew2015.CallTypes v) :=
  resolve_eq _ (by decide) v

@[ksy ↓] theorem read_Homebrew2015_CallTypes_b1 (ev sub) : readTy ev sub (.bitsEnum 1 Homebrew.Homebrew2015.CallTypes) =
    asEnum Dmr.Homebrew.Homebrew2015.CallTypes (readBitsIntBe 1) >>= fun e => pure (some (EnumVal.toPy "CallTypes" e)) :=
  enum_bits resolve_Homebrew2015_CallTypes ev sub 1

@[ksy] theorem resolve_Homebrew2015_FrameTypes (v : Nat) : Homebrew.Homebrew2015.FrameTypes.resolve v = EnumVal.toPy "FrameTypes" (resolveEnum Dmr.Homebrew.Homebrew2015.FrameTypes v) :=
  resolve_eq _ (by decide) v

@[ksy ↓] theorem read_Homebrew2015_FrameTypes_b2 (ev sub) : readTy ev sub (.bitsEnum 2 Homebrew.Homebrew2015.FrameTypes) =
    asEnum Dmr.Homebrew.Homebrew2015.FrameTypes (readBitsIntBe 2) >>= fun e => pure (some (EnumVal.toPy "FrameTypes" e)) :=
  enum_bits resolve_Homebrew2015_FrameTypes ev sub 2

/-- okdmr/kaitai/homebrew/homebrew2015.ksy:20-49 against `Dmr.Homebrew.Homebrew2015.TypeDmrData`. -/
@[ksy ↓] theorem Homebrew2015_TypeDmrData_conforms (n : Nat) (sc : Scope) :
    parse (n + 1) sc Homebrew.Homebrew2015.TypeDmrData = (fun x => view (Dmr.Homebrew.Homebrew2015.TypeDmrData.toPy x)) <$> Dmr.Homebrew.Homebrew2015.TypeDmrData.read := by
  rw [parse_succ]
  ksy_simp [Dmr.Homebrew.Homebrew2015.TypeDmrData.read, Dmr.Homebrew.Homebrew2015.TypeDmrData.toPy]

/-- okdmr/kaitai/homebrew/homebrew2015.ksy:51-53 against `Dmr.Homebrew.Homebrew2015.TypeRepeaterLoginRequest`. -/
@[ksy ↓] theorem Homebrew2015_TypeRepeaterLoginRequest_conforms (n : Nat) (sc : Scope) :
    parse (n + 1) sc Homebrew.Homebrew2015.TypeRepeaterLoginRequest = (fun x => view (Dmr.Homebrew.Homebrew2015.TypeRepeaterLoginRequest.toPy x)) <$> Dmr.Homebrew.Homebrew2015.TypeRepeaterLoginRequest.read := by
  rw [parse_succ]
  ksy_simp [Dmr.Homebrew.Homebrew2015.TypeRepeaterLoginRequest.read, Dmr.Homebrew.Homebrew2015.TypeRepeaterLoginRequest.toPy]

/-- okdmr/kaitai/homebrew/homebrew2015.ksy:55-59 against `Dmr.Homebrew.Homebrew2015.TypeMasterPing`. -/
@[ksy ↓] theorem Homebrew2015_TypeMasterPing_conforms (n : Nat) (sc : Scope) :
    parse (n + 1) sc Homebrew.Homebrew2015.TypeMasterPing = (fun x => view (Dmr.Homebrew.Homebrew2015.TypeMasterPing.toPy x)) <$> Dmr.Homebrew.Homebrew2015.TypeMasterPing.read := by
  rw [parse_succ]
  ksy_simp [Dmr.Homebrew.Homebrew2015.TypeMasterPing.read, Dmr.Homebrew.Homebrew2015.TypeMasterPing.toPy]

/-- okdmr/kaitai/homebrew/homebrew2015.ksy:61-65 against `Dmr.Homebrew.Homebrew2015.TypeRepeaterPong`. -/
@[ksy ↓] theorem Homebrew2015_TypeRepeaterPong_conforms (n : Nat) (sc : Scope) :
    parse (n + 1) sc Homebrew.Homebrew2015.TypeRepeaterPong = (fun x => view (Dmr.Homebrew.Homebrew2015.TypeRepeaterPong.toPy x)) <$> Dmr.Homebrew.Homebrew2015.TypeRepeaterPong.read := by
  rw [parse_succ]
  ksy_simp [Dmr.Homebrew.Homebrew2015.TypeRepeaterPong.read, Dmr.Homebrew.Homebrew2015.TypeRepeaterPong.toPy]

/-- okdmr/kaitai/homebrew/homebrew2015.ksy:67-71 against `Dmr.Homebrew.Homebrew2015.TypeMasterClosing`. -/
@[ksy ↓] theorem Homebrew2015_TypeMasterClosing_conforms (n : Nat) (sc : Scope) :
    parse (n + 1) sc Homebrew.Homebrew2015.TypeMasterClosing = (fun x => view (Dmr.Homebrew.Homebrew2015.TypeMasterClosing.toPy x)) <$> Dmr.Homebrew.Homebrew2015.TypeMasterClosing.read := by
  rw [parse_succ]
  ksy_simp [Dmr.Homebrew.Homebrew2015.TypeMasterClosing.read, Dmr.Homebrew.Homebrew2015.TypeMasterClosing.toPy]

/-- okdmr/kaitai/homebrew/homebrew2015.ksy:73-77 against `Dmr.Homebrew.Homebrew2015.TypeMasterNotAccept`. -/
@[ksy ↓] theorem Homebrew2015_TypeMasterNotAccept_conforms (n : Nat) (sc : Scope) :
    parse (n + 1) sc Homebrew.Homebrew2015.TypeMasterNotAccept = (fun x => view (Dmr.Homebrew.Homebrew2015.TypeMasterNotAccept.toPy x)) <$> Dmr.Homebrew.Homebrew2015.TypeMasterNotAccept.read := by
  rw [parse_succ]
  ksy_simp [Dmr.Homebrew.Homebrew2015.TypeMasterNotAccept.read, Dmr.Homebrew.Homebrew2015.TypeMasterNotAccept.toPy]

/-- okdmr/kaitai/homebrew/homebrew2015.ksy:79-86 against `Dmr.Homebrew.Homebrew2015.TypeMasterRepeaterAck`. -/
@[ksy ↓] theorem Homebrew2015_TypeMasterRepeaterAck_conforms (n : Nat) (sc : Scope) :
    parse (n + 1) sc Homebrew.Homebrew2015.TypeMasterRepeaterAck = (fun x => view (Dmr.Homebrew.Homebrew2015.TypeMasterRepeaterAck.toPy x)) <$> Dmr.Homebrew.Homebrew2015.TypeMasterRepeaterAck.read := by
  rw [parse_succ]
  ksy_simp [Dmr.Homebrew.Homebrew2015.TypeMasterRepeaterAck.read, Dmr.Homebrew.Homebrew2015.TypeMasterRepeaterAck.toPy]

/-- okdmr/kaitai/homebrew/homebrew2015.ksy:88-92 against `Dmr.Homebrew.Homebrew2015.TypeRepeaterLoginResponse`. -/
@[ksy ↓] theorem Homebrew2015_TypeRepeaterLoginResponse_conforms (n : Nat) (sc : Scope) :
    parse (n + 1) sc Homebrew.Homebrew2015.TypeRepeaterLoginResponse = (fun x => view (Dmr.Homebrew.Homebrew2015.TypeRepeaterLoginResponse.toPy x)) <$> Dmr.Homebrew.Homebrew2015.TypeRepeaterLoginResponse.read := by
  rw [parse_succ]
  ksy_simp [Dmr.Homebrew.Homebrew2015.TypeRepeaterLoginResponse.read, Dmr.Homebrew.Homebrew2015.TypeRepeaterLoginResponse.toPy]

/-- okdmr/kaitai/homebrew/homebrew2015.ksy:102-106 against `Dmr.Homebrew.Homebrew2015.TypeRepeaterClosing`. -/
@[ksy ↓] theorem Homebrew2015_TypeRepeaterClosing_conforms (n : Nat) (sc : Scope) :
    parse (n + 1) sc Homebrew.Homebrew2015.TypeRepeaterClosing = (fun x => view (Dmr.Homebrew.Homebrew2015.TypeRepeaterClosing.toPy x)) <$> Dmr.Homebrew.Homebrew2015.TypeRepeaterClosing.read := by
  rw [parse_succ]
  ksy_simp [Dmr.Homebrew.Homebrew2015.TypeRepeaterClosing.read, Dmr.Homebrew.Homebrew2015.TypeRepeaterClosing.toPy]

/-- okdmr/kaitai/homebrew/homebrew2015.ksy:108-166 against `Dmr.Homebrew.Homebrew2015.TypeRepeaterConfiguration`. -/
@[ksy ↓] theorem Homebrew2015_TypeRepeaterConfiguration_conforms (n : Nat) (sc : Scope) :
    parse (n + 1) sc Homebrew.Homebrew2015.TypeRepeaterConfiguration = (fun x => view (Dmr.Homebrew.Homebrew2015.TypeRepeaterConfiguration.toPy x)) <$> Dmr.Homebrew.Homebrew2015.TypeRepeaterConfiguration.read := by
  rw [parse_succ]
  ksy_simp [Dmr.Homebrew.Homebrew2015.TypeRepeaterConfiguration.read, Dmr.Homebrew.Homebrew2015.TypeRepeaterConfiguration.toPy]

/-- okdmr/kaitai/homebrew/homebrew2015.ksy instance `fifth_letter` of the message against the property of `Dmr.Homebrew.Homebrew2015` on its first access. -/
@[ksy ↓] theorem Homebrew2015_fifth_letter (n : Nat) (attrs : List (String × PyVal)) (root : Frame)
    (ht : root.type.instances.lookup "fifth_letter" = some (.at (.int 4) (.str (.int 1) .ascii) none)) :
    inst (n + 1) root root "fifth_letter" = PyVal.str <$> Dmr.Homebrew.Homebrew2015.computeFifthLetter := by
  rw [inst_at _ _ _ _ _ _ ht]
  ksy_simp [Dmr.Homebrew.Homebrew2015.computeFifthLetter]

/-- okdmr/kaitai/homebrew/homebrew2015.ksy type `type_repeater_configuration_or_closing`, in a message of the whole type, against
`Dmr.Homebrew.Homebrew2015.TypeRepeaterConfigurationOrClosing`. -/
theorem Homebrew2015_TypeRepeaterConfigurationOrClosing_conforms (n : Nat) (sc : Scope)
    (ht : sc.root.type.instances.lookup "fifth_letter" = some (.at (.int 4) (.str (.int 1) .ascii) none))
    (ha : sc.root.attrs.lookup "fifth_letter" = none) :
    parse (n + 2) sc Homebrew.Homebrew2015.TypeRepeaterConfigurationOrClosing =
      (fun x => view (Dmr.Homebrew.Homebrew2015.TypeRepeaterConfigurationOrClosing.toPy x)) <$> Dmr.Homebrew.Homebrew2015.TypeRepeaterConfigurationOrClosing.read := by
  rw [parse_succ]
  ksy_simp [Dmr.Homebrew.Homebrew2015.TypeRepeaterConfigurationOrClosing.read, Dmr.Homebrew.Homebrew2015.TypeRepeaterConfigurationOrClosing.toPy, ha, Homebrew2015_fifth_letter _ [] _ ht,
    Dmr.Homebrew.Homebrew2015.TypeRepeaterConfigurationOrClosing.readData]
  refine rd_bind_congr fun letter => ?_
  split <;> ksy_simp [Dmr.Homebrew.Homebrew2015.TypeRepeaterConfigurationOrClosing.DataUnion.toPy]

/-- okdmr/kaitai/homebrew/homebrew2015.ksy:168-175 against `Dmr.Homebrew.Homebrew2015.TypeRepeaterOptions`. -/
@[ksy ↓] theorem Homebrew2015_TypeRepeaterOptions_conforms (n : Nat) (sc : Scope) :
    parse (n + 1) sc Homebrew.Homebrew2015.TypeRepeaterOptions = (fun x => view (Dmr.Homebrew.Homebrew2015.TypeRepeaterOptions.toPy x)) <$> Dmr.Homebrew.Homebrew2015.TypeRepeaterOptions.read := by
  rw [parse_succ]
  ksy_simp [Dmr.Homebrew.Homebrew2015.TypeRepeaterOptions.read, Dmr.Homebrew.Homebrew2015.TypeRepeaterOptions.toPy]

/-- okdmr/kaitai/homebrew/homebrew2015.ksy against `Dmr.Homebrew.Homebrew2015`. -/
@[ksy ↓] theorem Homebrew2015_conforms (n : Nat) (sc : Scope) :
    parse (n + 3) sc Homebrew.Homebrew2015 = (fun x => view (Dmr.Homebrew.Homebrew2015.toPy x)) <$> Dmr.Homebrew.Homebrew2015.read := by
  have hr (attrs sc) : parse (n + 2) ⟨⟨Homebrew.Homebrew2015, PyVal.optAttr "command_prefix" (some attrs)⟩, sc,
      ⟨Homebrew.Homebrew2015, PyVal.optAttr "command_prefix" (some attrs)⟩⟩ Homebrew.Homebrew2015.TypeRepeaterConfigurationOrClosing = _ :=
    Homebrew2015_TypeRepeaterConfigurationOrClosing_conforms n _ rfl rfl
  rw [parse_succ]
  ksy_simp [Dmr.Homebrew.Homebrew2015.read, Dmr.Homebrew.Homebrew2015.toPy, hr]
  refine rd_bind_congr fun on => ?_
  by_cases h : on ∈ ["RPTL".toList, "MSTN".toList, "MSTA".toList, "RPTK".toList, "MSTP".toList, "RPTP".toList, "RPTC".toList, "MSTC".toList, "DMRD".toList]
  · simp only [List.mem_cons, List.not_mem_nil, or_false] at h
    rcases h with rfl | rfl | rfl | rfl | rfl | rfl | rfl | rfl | rfl <;>
      ksy_simp [Dmr.Homebrew.Homebrew2015.readCommandData, Dmr.Homebrew.Homebrew2015.CommandDataUnion.toPy, String.toList_inj]
  · simp only [List.mem_cons, List.not_mem_nil, or_false, not_or] at h
    obtain ⟨h0, h1, h2, h3, h4, h5, h6, h7, h8⟩ := h
    ksy_simp [Dmr.Homebrew.Homebrew2015.readCommandData, h0, h1, h2, h3, h4, h5, h6, h7, h8]

end Dmr.Ksy.Homebrew
