import Verif.Ksy.Conform.Base
/-
Generated by tools/mkconform.py: the schema of `Mmdvm2020` against the model of the Python classes.
-/

set_option linter.unusedSimpArgs false
set_option maxHeartbeats 1000000

namespace Dmr.Ksy.Homebrew

@[ksy] theorem resolve_Mmdvm2020_Timeslots (v : Nat) : Homebrew.Mmdvm2020.Timeslots.resolve v = EnumVal.toPy "Timeslots" (resolveEnum Dmr.Homebrew.Mmdvm2020.Timeslots v) :=
  resolve_eq _ (by decide) v

@[ksy ↓] theorem read_Mmdvm2020_Timeslots_b1 (ev sub) : readTy ev sub (.bitsEnum 1 Homebrew.Mmdvm2020.Timeslots) =
    asEnum Dmr.Homebrew.Mmdvm2020.Timeslots (readBitsIntBe 1) >>= fun e => pure (some (EnumVal.toPy "Timeslots" e)) :=
  enum_bits resolve_Mmdvm2020_Timeslots ev sub 1

@[ksy] theorem resolve_Mmdvm2020_CallTypes (v : Nat) : Homebrew.Mmdvm2020.CallTypes.resolve v = EnumVal.toPy "CallTypes" (resolveEnum Dmr.Homebrew.Mmdvm2020.CallTypes v) :=
  resolve_eq _ (by decide) v

@[ksy ↓] theorem read_Mmdvm2020_CallTypes_b1 (ev sub) : readTy ev sub (.bitsEnum 1 Homebrew.Mmdvm2020.CallTypes) =
    asEnum Dmr.Homebrew.Mmdvm2020.CallTypes (readBitsIntBe 1) >>= fun e => pure (some (EnumVal.toPy "CallTypes" e)) :=
  enum_bits resolve_Mmdvm2020_CallTypes ev sub 1

@[ksy] theorem resolve_Mmdvm2020_FrameTypes (v : Nat) : Homebrew.Mmdvm2020.FrameTypes.resolve v = EnumVal.toPy "FrameTypes" (resolveEnum Dmr.Homebrew.Mmdvm2020.FrameTypes v) :=
  resolve_eq _ (by decide) v

@[ksy ↓] theorem read_Mmdvm2020_FrameTypes_b2 (ev sub) : readTy ev sub (.bitsEnum 2 Homebrew.Mmdvm2020.FrameTypes) =
    asEnum Dmr.Homebrew.Mmdvm2020.FrameTypes (readBitsIntBe 2) >>= fun e => pure (some (EnumVal.toPy "FrameTypes" e)) :=
  enum_bits resolve_Mmdvm2020_FrameTypes ev sub 2

@[ksy] theorem resolve_Mmdvm2020_TalkerAliasTypes (v : Nat) : Homebrew.Mmdvm2020.TalkerAliasTypes.resolve v = EnumVal.toPy "TalkerAliasTypes" (resolveEnum Dmr.Homebrew.Mmdvm2020.TalkerAliasTypes v) :=
  resolve_eq _ (by decide) v

@[ksy ↓] theorem read_Mmdvm2020_TalkerAliasTypes_u1 (ev sub) : readTy ev sub (.primEnum .u1 Homebrew.Mmdvm2020.TalkerAliasTypes) =
    asEnum Dmr.Homebrew.Mmdvm2020.TalkerAliasTypes readU1 >>= fun e => pure (some (EnumVal.toPy "TalkerAliasTypes" e)) :=
  enum_prim resolve_Mmdvm2020_TalkerAliasTypes .u1 readU1 rfl ev sub

@[ksy] theorem resolve_Mmdvm2020_PositionErrors (v : Nat) : Homebrew.Mmdvm2020.PositionErrors.resolve v = EnumVal.toPy "PositionErrors" (resolveEnum Dmr.Homebrew.Mmdvm2020.PositionErrors v) :=
  resolve_eq _ (by decide) v

@[ksy ↓] theorem read_Mmdvm2020_PositionErrors_b3 (ev sub) : readTy ev sub (.bitsEnum 3 Homebrew.Mmdvm2020.PositionErrors) =
    asEnum Dmr.Homebrew.Mmdvm2020.PositionErrors (readBitsIntBe 3) >>= fun e => pure (some (EnumVal.toPy "PositionErrors" e)) :=
  enum_bits resolve_Mmdvm2020_PositionErrors ev sub 3

/-- okdmr/kaitai/homebrew/mmdvm2020.ksy:34-36 against `Dmr.Homebrew.Mmdvm2020.TypeUnknown`. -/
@[ksy ↓] theorem Mmdvm2020_TypeUnknown_conforms (n : Nat) (sc : Scope) :
    parse (n + 1) sc Homebrew.Mmdvm2020.TypeUnknown = (fun x => view (Dmr.Homebrew.Mmdvm2020.TypeUnknown.toPy x)) <$> Dmr.Homebrew.Mmdvm2020.TypeUnknown.read := by
  rw [parse_succ]
  ksy_simp [Dmr.Homebrew.Mmdvm2020.TypeUnknown.read, Dmr.Homebrew.Mmdvm2020.TypeUnknown.toPy]

/-- okdmr/kaitai/homebrew/mmdvm2020.ksy:38-47 against `Dmr.Homebrew.Mmdvm2020.TypeTalkerAlias`. -/
@[ksy ↓] theorem Mmdvm2020_TypeTalkerAlias_conforms (n : Nat) (sc : Scope) :
    parse (n + 1) sc Homebrew.Mmdvm2020.TypeTalkerAlias = (fun x => view (Dmr.Homebrew.Mmdvm2020.TypeTalkerAlias.toPy x)) <$> Dmr.Homebrew.Mmdvm2020.TypeTalkerAlias.read := by
  rw [parse_succ]
  ksy_simp [Dmr.Homebrew.Mmdvm2020.TypeTalkerAlias.read, Dmr.Homebrew.Mmdvm2020.TypeTalkerAlias.toPy]

/-- okdmr/kaitai/homebrew/mmdvm2020.ksy:49-78 against `Dmr.Homebrew.Mmdvm2020.TypeDmrData`. -/
@[ksy ↓] theorem Mmdvm2020_TypeDmrData_conforms (n : Nat) (sc : Scope) :
    parse (n + 1) sc Homebrew.Mmdvm2020.TypeDmrData = (fun x => view (Dmr.Homebrew.Mmdvm2020.TypeDmrData.toPy x)) <$> Dmr.Homebrew.Mmdvm2020.TypeDmrData.read := by
  rw [parse_succ]
  ksy_simp [Dmr.Homebrew.Mmdvm2020.TypeDmrData.read, Dmr.Homebrew.Mmdvm2020.TypeDmrData.toPy]

/-- okdmr/kaitai/homebrew/mmdvm2020.ksy:80-82 against `Dmr.Homebrew.Mmdvm2020.TypeRepeaterLoginRequest`. -/
@[ksy ↓] theorem Mmdvm2020_TypeRepeaterLoginRequest_conforms (n : Nat) (sc : Scope) :
    parse (n + 1) sc Homebrew.Mmdvm2020.TypeRepeaterLoginRequest = (fun x => view (Dmr.Homebrew.Mmdvm2020.TypeRepeaterLoginRequest.toPy x)) <$> Dmr.Homebrew.Mmdvm2020.TypeRepeaterLoginRequest.read := by
  rw [parse_succ]
  ksy_simp [Dmr.Homebrew.Mmdvm2020.TypeRepeaterLoginRequest.read, Dmr.Homebrew.Mmdvm2020.TypeRepeaterLoginRequest.toPy]

/-- okdmr/kaitai/homebrew/mmdvm2020.ksy:84-88 against `Dmr.Homebrew.Mmdvm2020.TypeRepeaterPing`. -/
@[ksy ↓] theorem Mmdvm2020_TypeRepeaterPing_conforms (n : Nat) (sc : Scope) :
    parse (n + 1) sc Homebrew.Mmdvm2020.TypeRepeaterPing = (fun x => view (Dmr.Homebrew.Mmdvm2020.TypeRepeaterPing.toPy x)) <$> Dmr.Homebrew.Mmdvm2020.TypeRepeaterPing.read := by
  rw [parse_succ]
  ksy_simp [Dmr.Homebrew.Mmdvm2020.TypeRepeaterPing.read, Dmr.Homebrew.Mmdvm2020.TypeRepeaterPing.toPy]

/-- okdmr/kaitai/homebrew/mmdvm2020.ksy:90-94 against `Dmr.Homebrew.Mmdvm2020.TypeMasterPong`. -/
@[ksy ↓] theorem Mmdvm2020_TypeMasterPong_conforms (n : Nat) (sc : Scope) :
    parse (n + 1) sc Homebrew.Mmdvm2020.TypeMasterPong = (fun x => view (Dmr.Homebrew.Mmdvm2020.TypeMasterPong.toPy x)) <$> Dmr.Homebrew.Mmdvm2020.TypeMasterPong.read := by
  rw [parse_succ]
  ksy_simp [Dmr.Homebrew.Mmdvm2020.TypeMasterPong.read, Dmr.Homebrew.Mmdvm2020.TypeMasterPong.toPy]

/-- okdmr/kaitai/homebrew/mmdvm2020.ksy:96-100 against `Dmr.Homebrew.Mmdvm2020.TypeMasterClosing`. -/
@[ksy ↓] theorem Mmdvm2020_TypeMasterClosing_conforms (n : Nat) (sc : Scope) :
    parse (n + 1) sc Homebrew.Mmdvm2020.TypeMasterClosing = (fun x => view (Dmr.Homebrew.Mmdvm2020.TypeMasterClosing.toPy x)) <$> Dmr.Homebrew.Mmdvm2020.TypeMasterClosing.read := by
  rw [parse_succ]
  ksy_simp [Dmr.Homebrew.Mmdvm2020.TypeMasterClosing.read, Dmr.Homebrew.Mmdvm2020.TypeMasterClosing.toPy]

/-- okdmr/kaitai/homebrew/mmdvm2020.ksy:102-106 against `Dmr.Homebrew.Mmdvm2020.TypeMasterNotAccept`. -/
@[ksy ↓] theorem Mmdvm2020_TypeMasterNotAccept_conforms (n : Nat) (sc : Scope) :
    parse (n + 1) sc Homebrew.Mmdvm2020.TypeMasterNotAccept = (fun x => view (Dmr.Homebrew.Mmdvm2020.TypeMasterNotAccept.toPy x)) <$> Dmr.Homebrew.Mmdvm2020.TypeMasterNotAccept.read := by
  rw [parse_succ]
  ksy_simp [Dmr.Homebrew.Mmdvm2020.TypeMasterNotAccept.read, Dmr.Homebrew.Mmdvm2020.TypeMasterNotAccept.toPy]

/-- okdmr/kaitai/homebrew/mmdvm2020.ksy:108-112 against `Dmr.Homebrew.Mmdvm2020.TypeMasterRepeaterAck`. -/
@[ksy ↓] theorem Mmdvm2020_TypeMasterRepeaterAck_conforms (n : Nat) (sc : Scope) :
    parse (n + 1) sc Homebrew.Mmdvm2020.TypeMasterRepeaterAck = (fun x => view (Dmr.Homebrew.Mmdvm2020.TypeMasterRepeaterAck.toPy x)) <$> Dmr.Homebrew.Mmdvm2020.TypeMasterRepeaterAck.read := by
  rw [parse_succ]
  ksy_simp [Dmr.Homebrew.Mmdvm2020.TypeMasterRepeaterAck.read, Dmr.Homebrew.Mmdvm2020.TypeMasterRepeaterAck.toPy]

/-- okdmr/kaitai/homebrew/mmdvm2020.ksy:114-118 against `Dmr.Homebrew.Mmdvm2020.TypeRepeaterLoginResponse`. -/
@[ksy ↓] theorem Mmdvm2020_TypeRepeaterLoginResponse_conforms (n : Nat) (sc : Scope) :
    parse (n + 1) sc Homebrew.Mmdvm2020.TypeRepeaterLoginResponse = (fun x => view (Dmr.Homebrew.Mmdvm2020.TypeRepeaterLoginResponse.toPy x)) <$> Dmr.Homebrew.Mmdvm2020.TypeRepeaterLoginResponse.read := by
  rw [parse_succ]
  ksy_simp [Dmr.Homebrew.Mmdvm2020.TypeRepeaterLoginResponse.read, Dmr.Homebrew.Mmdvm2020.TypeRepeaterLoginResponse.toPy]

/-- okdmr/kaitai/homebrew/mmdvm2020.ksy:128-132 against `Dmr.Homebrew.Mmdvm2020.TypeRepeaterClosing`. -/
@[ksy ↓] theorem Mmdvm2020_TypeRepeaterClosing_conforms (n : Nat) (sc : Scope) :
    parse (n + 1) sc Homebrew.Mmdvm2020.TypeRepeaterClosing = (fun x => view (Dmr.Homebrew.Mmdvm2020.TypeRepeaterClosing.toPy x)) <$> Dmr.Homebrew.Mmdvm2020.TypeRepeaterClosing.read := by
  rw [parse_succ]
  ksy_simp [Dmr.Homebrew.Mmdvm2020.TypeRepeaterClosing.read, Dmr.Homebrew.Mmdvm2020.TypeRepeaterClosing.toPy]

/-- okdmr/kaitai/homebrew/mmdvm2020.ksy:134-197 against `Dmr.Homebrew.Mmdvm2020.TypeRepeaterConfiguration`. -/
@[ksy ↓] theorem Mmdvm2020_TypeRepeaterConfiguration_conforms (n : Nat) (sc : Scope) :
    parse (n + 1) sc Homebrew.Mmdvm2020.TypeRepeaterConfiguration = (fun x => view (Dmr.Homebrew.Mmdvm2020.TypeRepeaterConfiguration.toPy x)) <$> Dmr.Homebrew.Mmdvm2020.TypeRepeaterConfiguration.read := by
  rw [parse_succ]
  ksy_simp [Dmr.Homebrew.Mmdvm2020.TypeRepeaterConfiguration.read, Dmr.Homebrew.Mmdvm2020.TypeRepeaterConfiguration.toPy]

/-- okdmr/kaitai/homebrew/mmdvm2020.ksy instance `fifth_letter` of the message against the property of `Dmr.Homebrew.Mmdvm2020` on its first access. -/
@[ksy ↓] theorem Mmdvm2020_fifth_letter (n : Nat) (attrs : List (String × PyVal)) (root : Frame)
    (ht : root.type.instances.lookup "fifth_letter" = some (.at (.int 4) (.str (.int 1) .ascii) none)) :
    inst (n + 1) root root "fifth_letter" = PyVal.str <$> Dmr.Homebrew.Mmdvm2020.computeFifthLetter := by
  rw [inst_at _ _ _ _ _ _ ht]
  ksy_simp [Dmr.Homebrew.Mmdvm2020.computeFifthLetter]

/-- okdmr/kaitai/homebrew/mmdvm2020.ksy type `type_repeater_configuration_or_closing`, in a message of the whole type, against
`Dmr.Homebrew.Mmdvm2020.TypeRepeaterConfigurationOrClosing`. -/
theorem Mmdvm2020_TypeRepeaterConfigurationOrClosing_conforms (n : Nat) (sc : Scope)
    (ht : sc.root.type.instances.lookup "fifth_letter" = some (.at (.int 4) (.str (.int 1) .ascii) none))
    (ha : sc.root.attrs.lookup "fifth_letter" = none) :
    parse (n + 2) sc Homebrew.Mmdvm2020.TypeRepeaterConfigurationOrClosing =
      (fun x => view (Dmr.Homebrew.Mmdvm2020.TypeRepeaterConfigurationOrClosing.toPy x)) <$> Dmr.Homebrew.Mmdvm2020.TypeRepeaterConfigurationOrClosing.read := by
  rw [parse_succ]
  ksy_simp [Dmr.Homebrew.Mmdvm2020.TypeRepeaterConfigurationOrClosing.read, Dmr.Homebrew.Mmdvm2020.TypeRepeaterConfigurationOrClosing.toPy, ha, Mmdvm2020_fifth_letter _ [] _ ht,
    Dmr.Homebrew.Mmdvm2020.TypeRepeaterConfigurationOrClosing.readData]
  refine rd_bind_congr fun letter => ?_
  split <;> ksy_simp [Dmr.Homebrew.Mmdvm2020.TypeRepeaterConfigurationOrClosing.DataUnion.toPy]

/-- okdmr/kaitai/homebrew/mmdvm2020.ksy:199-206 against `Dmr.Homebrew.Mmdvm2020.TypeRepeaterOptions`. -/
@[ksy ↓] theorem Mmdvm2020_TypeRepeaterOptions_conforms (n : Nat) (sc : Scope) :
    parse (n + 1) sc Homebrew.Mmdvm2020.TypeRepeaterOptions = (fun x => view (Dmr.Homebrew.Mmdvm2020.TypeRepeaterOptions.toPy x)) <$> Dmr.Homebrew.Mmdvm2020.TypeRepeaterOptions.read := by
  rw [parse_succ]
  ksy_simp [Dmr.Homebrew.Mmdvm2020.TypeRepeaterOptions.read, Dmr.Homebrew.Mmdvm2020.TypeRepeaterOptions.toPy]

/-- okdmr/kaitai/homebrew/mmdvm2020.ksy:208-220 against `Dmr.Homebrew.Mmdvm2020.TypeRadioPosition`. -/
@[ksy ↓] theorem Mmdvm2020_TypeRadioPosition_conforms (n : Nat) (sc : Scope) :
    parse (n + 1) sc Homebrew.Mmdvm2020.TypeRadioPosition = (fun x => view (Dmr.Homebrew.Mmdvm2020.TypeRadioPosition.toPy x)) <$> Dmr.Homebrew.Mmdvm2020.TypeRadioPosition.read := by
  rw [parse_succ]
  ksy_simp [Dmr.Homebrew.Mmdvm2020.TypeRadioPosition.read, Dmr.Homebrew.Mmdvm2020.TypeRadioPosition.toPy]

/-- okdmr/kaitai/homebrew/mmdvm2020.ksy:222-222 against `Dmr.Homebrew.Mmdvm2020.TypeRepeaterBeacon`. -/
@[ksy ↓] theorem Mmdvm2020_TypeRepeaterBeacon_conforms (n : Nat) (sc : Scope) :
    parse (n + 1) sc Homebrew.Mmdvm2020.TypeRepeaterBeacon = (fun x => view (Dmr.Homebrew.Mmdvm2020.TypeRepeaterBeacon.toPy x)) <$> Dmr.Homebrew.Mmdvm2020.TypeRepeaterBeacon.read := by
  rw [parse_succ]
  ksy_simp [Dmr.Homebrew.Mmdvm2020.TypeRepeaterBeacon.read, Dmr.Homebrew.Mmdvm2020.TypeRepeaterBeacon.toPy]

/-- okdmr/kaitai/homebrew/mmdvm2020.ksy against `Dmr.Homebrew.Mmdvm2020`. -/
@[ksy ↓] theorem Mmdvm2020_conforms (n : Nat) (sc : Scope) :
    parse (n + 3) sc Homebrew.Mmdvm2020 = (fun x => view (Dmr.Homebrew.Mmdvm2020.toPy x)) <$> Dmr.Homebrew.Mmdvm2020.read := by
  have hr (attrs sc) : parse (n + 2) ⟨⟨Homebrew.Mmdvm2020, PyVal.optAttr "command_prefix" (some attrs)⟩, sc,
      ⟨Homebrew.Mmdvm2020, PyVal.optAttr "command_prefix" (some attrs)⟩⟩ Homebrew.Mmdvm2020.TypeRepeaterConfigurationOrClosing = _ :=
    Mmdvm2020_TypeRepeaterConfigurationOrClosing_conforms n _ rfl rfl
  rw [parse_succ]
  ksy_simp [Dmr.Homebrew.Mmdvm2020.read, Dmr.Homebrew.Mmdvm2020.toPy, hr]
  refine rd_bind_congr fun on => ?_
  by_cases h : on ∈ ["DMRA".toList, "DMRG".toList, "DMRD".toList, "MSTC".toList, "MSTP".toList, "MSTN".toList, "RPTP".toList, "RPTO".toList, "RPTL".toList, "RPTA".toList, "RPTK".toList, "RPTC".toList, "RPTS".toList]
  · simp only [List.mem_cons, List.not_mem_nil, or_false] at h
    rcases h with rfl | rfl | rfl | rfl | rfl | rfl | rfl | rfl | rfl | rfl | rfl | rfl | rfl <;>
      ksy_simp [Dmr.Homebrew.Mmdvm2020.readCommandData, Dmr.Homebrew.Mmdvm2020.CommandDataUnion.toPy, String.toList_inj]
  · simp only [List.mem_cons, List.not_mem_nil, or_false, not_or] at h
    obtain ⟨h0, h1, h2, h3, h4, h5, h6, h7, h8, h9, h10, h11, h12⟩ := h
    ksy_simp [Dmr.Homebrew.Mmdvm2020.readCommandData, h0, h1, h2, h3, h4, h5, h6, h7, h8, h9, h10, h11, h12]

end Dmr.Ksy.Homebrew
