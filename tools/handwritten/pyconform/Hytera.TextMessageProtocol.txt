theorem same_zero_one : same (.pv (.int 0)) (.pv (.int 1)) = false := rfl
theorem same_one_one : same (.pv (.int 1)) (.pv (.int 1)) = true := rfl
theorem optionFlag_disabled (c : Calls) : getattr c (.pv (EnumVal.toPy "OptionFlags" (.known Dmr.Hytera.TextMessageProtocol.OptionFlags.option_len_and_field_disabled))) "value" =
    pure (.pv (.int ((0 : Nat) : Int))) := by
  rw [EnumVal.toPy, getattr]; rfl
theorem optionFlag_enabled (c : Calls) : getattr c (.pv (EnumVal.toPy "OptionFlags" (.known Dmr.Hytera.TextMessageProtocol.OptionFlags.option_len_and_field_enabled))) "value" =
    pure (.pv (.int ((1 : Nat) : Int))) := by
  rw [EnumVal.toPy, getattr]; rfl
theorem optionFlag_raw (c : Calls) (v : Nat) : getattr c (.pv (EnumVal.toPy "OptionFlags" (.raw v : EnumVal Dmr.Hytera.TextMessageProtocol.OptionFlags))) "value" =
    raise .attribute := by
  rw [EnumVal.toPy, getattr]
  · intro r h; cases h
  · intro _ _ h; cases h
theorem isOne_disabled : Dmr.Hytera.TextMessageProtocol.optionFlagIsOne (.known .option_len_and_field_disabled) = pure false := rfl
theorem isOne_enabled : Dmr.Hytera.TextMessageProtocol.optionFlagIsOne (.known .option_len_and_field_enabled) = pure true := rfl
theorem isOne_raw (v : Nat) : Dmr.Hytera.TextMessageProtocol.optionFlagIsOne (.raw v) = Rd.throw .attribute := rfl

/-- okdmr/kaitai/hytera/text_message_protocol.py:17-106 against `Dmr.Hytera.TextMessageProtocol`. -/
@[py] theorem TextMessageProtocol_builds (n : Nat) (H : List Obj) (S : List Stream) (k : Nat) (hk : k < S.length) (s : Stream)
    (parent root : Val) : ((calls library (n + 5)).construct "Hytera.TextMessageProtocol" [.io k, parent, root]).run ⟨H, S.set k s⟩ =
      after Dmr.Hytera.TextMessageProtocol.read s (fun e s' => .raise e ⟨H, S.set k s'⟩)
        (built Dmr.Hytera.TextMessageProtocol.toPy k parent root H S) := by
  rw [construct_eq library _ "Hytera.TextMessageProtocol" _ _ TextMessageProtocol_class rfl rfl]
  py_run [onStream_set _ _ _ _ hk, hk, Dmr.Hytera.TextMessageProtocol.read]
  py_same
  rename_i ack _ flag _ reserved _ _ _ service _ len s1
  generalize resolveEnum Dmr.Hytera.TextMessageProtocol.OptionFlags flag = flag
  rcases flag with flag | v
  · cases flag
    · py_run [onStream_set _ _ _ _ hk, hk, optionFlag_disabled, isOne_disabled, Dmr.Hytera.TextMessageProtocol.toPy, Source.Hytera.TextMessageProtocol,
        Dmr.Hytera.TextMessageProtocol.optionSumLen, Dmr.Hytera.TextMessageProtocol.readOptionField, same_zero_one, same_one_one, Int.natCast_add, Int.cast_ofNat_Int]
    · py_run [onStream_set _ _ _ _ hk, hk, optionFlag_enabled, isOne_enabled, Dmr.Hytera.TextMessageProtocol.toPy, Source.Hytera.TextMessageProtocol,
        Dmr.Hytera.TextMessageProtocol.optionSumLen, Dmr.Hytera.TextMessageProtocol.readOptionField, same_zero_one, same_one_one, Int.natCast_add, Int.cast_ofNat_Int]
  · py_run [onStream_set _ _ _ _ hk, hk, optionFlag_raw, isOne_raw]
