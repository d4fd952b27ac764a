import Verif.Ksy.Conform.Base
import Verif.Ksy.Conform.RadioIp
/-
Generated by tools/mkconform.py: the schema of `TextMessageProtocol` against the model of the Python classes.
-/

set_option linter.unusedSimpArgs false
set_option maxHeartbeats 1000000

namespace Dmr.Ksy.Hytera

@[ksy] theorem resolve_TextMessageProtocol_AckFlags (v : Nat) : Hytera.TextMessageProtocol.AckFlags.resolve v = EnumVal.toPy "AckFlags" (resolveEnum Dmr.Hytera.TextMessageProtocol.AckFlags v) :=
  resolve_eq _ (by decide) v

@[ksy ↓] theorem read_TextMessageProtocol_AckFlags_b1 (ev sub) : readTy ev sub (.bitsEnum 1 Hytera.TextMessageProtocol.AckFlags) =
    asEnum Dmr.Hytera.TextMessageProtocol.AckFlags (readBitsIntBe 1) >>= fun e => pure (some (EnumVal.toPy "AckFlags" e)) :=
  enum_bits resolve_TextMessageProtocol_AckFlags ev sub 1

@[ksy] theorem resolve_TextMessageProtocol_OptionFlags (v : Nat) : Hytera.TextMessageProtocol.OptionFlags.resolve v = EnumVal.toPy "OptionFlags" (resolveEnum Dmr.Hytera.TextMessageProtocol.OptionFlags v) :=
  resolve_eq _ (by decide) v

@[ksy ↓] theorem read_TextMessageProtocol_OptionFlags_b1 (ev sub) : readTy ev sub (.bitsEnum 1 Hytera.TextMessageProtocol.OptionFlags) =
    asEnum Dmr.Hytera.TextMessageProtocol.OptionFlags (readBitsIntBe 1) >>= fun e => pure (some (EnumVal.toPy "OptionFlags" e)) :=
  enum_bits resolve_TextMessageProtocol_OptionFlags ev sub 1

@[ksy] theorem resolve_TextMessageProtocol_ServiceTypes (v : Nat) : Hytera.TextMessageProtocol.ServiceTypes.resolve v = EnumVal.toPy "ServiceTypes" (resolveEnum Dmr.Hytera.TextMessageProtocol.ServiceTypes v) :=
  resolve_eq _ (by decide) v

@[ksy ↓] theorem read_TextMessageProtocol_ServiceTypes_u1 (ev sub) : readTy ev sub (.primEnum .u1 Hytera.TextMessageProtocol.ServiceTypes) =
    asEnum Dmr.Hytera.TextMessageProtocol.ServiceTypes readU1 >>= fun e => pure (some (EnumVal.toPy "ServiceTypes" e)) :=
  enum_prim resolve_TextMessageProtocol_ServiceTypes .u1 readU1 rfl ev sub

@[ksy] theorem member_TextMessageProtocol_ServiceTypes_send_group_message : Hytera.TextMessageProtocol.ServiceTypes.member "send_group_message" = pure (.enum "ServiceTypes" 177) := rfl

@[ksy] theorem same_TextMessageProtocol_ServiceTypes_send_group_message (on : EnumVal Dmr.Hytera.TextMessageProtocol.ServiceTypes) :
    same (EnumVal.toPy "ServiceTypes" on) (.enum "ServiceTypes" 177) = decide (on = .known .send_group_message) :=
  same_known _ _ Dmr.Hytera.TextMessageProtocol.ServiceTypes.send_group_message

@[ksy] theorem member_TextMessageProtocol_ServiceTypes_send_group_message_ack : Hytera.TextMessageProtocol.ServiceTypes.member "send_group_message_ack" = pure (.enum "ServiceTypes" 178) := rfl

@[ksy] theorem same_TextMessageProtocol_ServiceTypes_send_group_message_ack (on : EnumVal Dmr.Hytera.TextMessageProtocol.ServiceTypes) :
    same (EnumVal.toPy "ServiceTypes" on) (.enum "ServiceTypes" 178) = decide (on = .known .send_group_message_ack) :=
  same_known _ _ Dmr.Hytera.TextMessageProtocol.ServiceTypes.send_group_message_ack

@[ksy] theorem member_TextMessageProtocol_ServiceTypes_send_private_message : Hytera.TextMessageProtocol.ServiceTypes.member "send_private_message" = pure (.enum "ServiceTypes" 161) := rfl

@[ksy] theorem same_TextMessageProtocol_ServiceTypes_send_private_message (on : EnumVal Dmr.Hytera.TextMessageProtocol.ServiceTypes) :
    same (EnumVal.toPy "ServiceTypes" on) (.enum "ServiceTypes" 161) = decide (on = .known .send_private_message) :=
  same_known _ _ Dmr.Hytera.TextMessageProtocol.ServiceTypes.send_private_message

@[ksy] theorem member_TextMessageProtocol_ServiceTypes_send_private_message_ack : Hytera.TextMessageProtocol.ServiceTypes.member "send_private_message_ack" = pure (.enum "ServiceTypes" 162) := rfl

@[ksy] theorem same_TextMessageProtocol_ServiceTypes_send_private_message_ack (on : EnumVal Dmr.Hytera.TextMessageProtocol.ServiceTypes) :
    same (EnumVal.toPy "ServiceTypes" on) (.enum "ServiceTypes" 162) = decide (on = .known .send_private_message_ack) :=
  same_known _ _ Dmr.Hytera.TextMessageProtocol.ServiceTypes.send_private_message_ack

@[ksy] theorem resolve_TextMessageProtocol_ResultCodes (v : Nat) : Hytera.TextMessageProtocol.ResultCodes.resolve v = EnumVal.toPy "ResultCodes" (resolveEnum Dmr.Hytera.TextMessageProtocol.ResultCodes v) :=
  resolve_eq _ (by decide) v

@[ksy ↓] theorem read_TextMessageProtocol_ResultCodes_u1 (ev sub) : readTy ev sub (.primEnum .u1 Hytera.TextMessageProtocol.ResultCodes) =
    asEnum Dmr.Hytera.TextMessageProtocol.ResultCodes readU1 >>= fun e => pure (some (EnumVal.toPy "ResultCodes" e)) :=
  enum_prim resolve_TextMessageProtocol_ResultCodes .u1 readU1 rfl ev sub

/-- The definition of `option_sum_len` in okdmr/kaitai/hytera/text_message_protocol.ksy. -/
@[ksy ↓] theorem TextMessageProtocol_option_sum_len (n : Nat) (attrs : List (String × PyVal)) (root : Frame) :
    inst (n + 1) ⟨Hytera.TextMessageProtocol, attrs⟩ root "option_sum_len" =
      eval (inst n) ⟨⟨Hytera.TextMessageProtocol, attrs⟩, ⟨Hytera.TextMessageProtocol, attrs⟩, root⟩ .none
        (.cond (.bin .eq (.toI (.field "option_flag")) (.int 1)) (.bin .add (.field "option_field_len") (.int 2)) (.int 0)) :=
  inst_value _ _ _ _ _ rfl

/-- okdmr/kaitai/hytera/text_message_protocol.ksy against `Dmr.Hytera.TextMessageProtocol`. -/
@[ksy ↓] theorem TextMessageProtocol_conforms (n : Nat) (sc : Scope) :
    parse (n + 2) sc Hytera.TextMessageProtocol =
      (fun x => view (Dmr.Hytera.TextMessageProtocol.toPy x)) <$> Dmr.Hytera.TextMessageProtocol.read := by
  have h0 : PyEnum.value Dmr.Hytera.TextMessageProtocol.OptionFlags.option_len_and_field_disabled = 0 := rfl
  have h1 : PyEnum.value Dmr.Hytera.TextMessageProtocol.OptionFlags.option_len_and_field_enabled = 1 := rfl
  have s0 : same (.int ((0 : Nat) : Int)) (.int 1) = false := rfl
  have s0' : same (.int 0) (.int 1) = false := rfl
  have s1 : same (.int ((1 : Nat) : Int)) (.int 1) = true := rfl
  have e0 : Dmr.Hytera.TextMessageProtocol.optionFlagIsOne (.known .option_len_and_field_disabled) = pure false := rfl
  have e1 : Dmr.Hytera.TextMessageProtocol.optionFlagIsOne (.known .option_len_and_field_enabled) = pure true := rfl
  have e2 (v) : Dmr.Hytera.TextMessageProtocol.optionFlagIsOne (.raw v) = Rd.throw .attribute := rfl
  have c0 : ((0 : Nat) : Int) = 0 := rfl
  have c2 (k : Nat) : ((k + 2 : Nat) : Int) = k + 2 := rfl
  rw [parse_succ]
  ksy_simp [Dmr.Hytera.TextMessageProtocol.read, Dmr.Hytera.TextMessageProtocol.toPy]
  ksy_same
  rename EnumVal Dmr.Hytera.TextMessageProtocol.OptionFlags => flag
  rcases flag with e | v
  · cases e
    · ksy_simp [toPy_known, h0, s0, e0, s0', c0, decide_not, Dmr.Hytera.TextMessageProtocol.optionSumLen,
        Dmr.Hytera.TextMessageProtocol.readOptionField]
    · ksy_simp [toPy_known, h1, s1, e1, c2, decide_not, Dmr.Hytera.TextMessageProtocol.optionSumLen,
        Dmr.Hytera.TextMessageProtocol.readOptionField]
  · ksy_simp [toPy_raw, e2, rd_throw_bind]

end Dmr.Ksy.Hytera
