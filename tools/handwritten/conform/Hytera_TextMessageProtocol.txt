/-- The definition of `option_sum_len` in okdmr/kaitai/hytera/text_message_protocol.ksy. -/
@[ksy ↓] theorem TextMessageProtocol_option_sum_len (n : Nat) (attrs : List (String × PyVal)) (root : Frame) :
    inst (n + 1) ⟨Hytera.TextMessageProtocol, attrs⟩ root "option_sum_len" =
      eval (inst n) ⟨⟨Hytera.TextMessageProtocol, attrs⟩, ⟨Hytera.TextMessageProtocol, attrs⟩, root⟩ .none
        (.cond (.bin .eq (.toI (.field "option_flag")) (.int 1)) (.bin .add (.field "option_field_len") (.int 2)) (.int 0)) :=
  inst_value _ _ _ _ _ rfl

/-- okdmr/kaitai/hytera/text_message_protocol.ksy against `Dmr.Hytera.TextMessageProtocol`. -/
@[ksy ↓] theorem TextMessageProtocol_conforms (n : Nat) (sc : Scope) :
    parse (n + 2) sc Hytera.TextMessageProtocol =
      (fun x => view (Dmr.Hytera.TextMessageProtocol.toPy x)) <$> Dmr.Hytera.TextMessageProtocol.read := by
  have h0 : PyEnum.value Dmr.Hytera.TextMessageProtocol.OptionFlags.option_len_and_field_disabled = 0 := rfl
  have h1 : PyEnum.value Dmr.Hytera.TextMessageProtocol.OptionFlags.option_len_and_field_enabled = 1 := rfl
  have s0 : same (.int ((0 : Nat) : Int)) (.int 1) = false := rfl
  have s0' : same (.int 0) (.int 1) = false := rfl
  have s1 : same (.int ((1 : Nat) : Int)) (.int 1) = true := rfl
  have e0 : Dmr.Hytera.TextMessageProtocol.optionFlagIsOne (.known .option_len_and_field_disabled) = pure false := rfl
  have e1 : Dmr.Hytera.TextMessageProtocol.optionFlagIsOne (.known .option_len_and_field_enabled) = pure true := rfl
  have e2 (v) : Dmr.Hytera.TextMessageProtocol.optionFlagIsOne (.raw v) = Rd.throw .attribute := rfl
  have c0 : ((0 : Nat) : Int) = 0 := rfl
  have c2 (k : Nat) : ((k + 2 : Nat) : Int) = k + 2 := rfl
  rw [parse_succ]
  ksy_simp [Dmr.Hytera.TextMessageProtocol.read, Dmr.Hytera.TextMessageProtocol.toPy]
  ksy_same
  rename EnumVal Dmr.Hytera.TextMessageProtocol.OptionFlags => flag
  rcases flag with e | v
  · cases e
    · ksy_simp [toPy_known, h0, s0, e0, s0', c0, decide_not, Dmr.Hytera.TextMessageProtocol.optionSumLen,
        Dmr.Hytera.TextMessageProtocol.readOptionField]
    · ksy_simp [toPy_known, h1, s1, e1, c2, decide_not, Dmr.Hytera.TextMessageProtocol.optionSumLen,
        Dmr.Hytera.TextMessageProtocol.readOptionField]
  · ksy_simp [toPy_raw, e2, rd_throw_bind]
