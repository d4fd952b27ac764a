import Verif.Ksy.Conform.Base
import Verif.Ksy.Conform.RadioIp
/-
Generated by tools/mkconform.py: the schema of `RadioRegistrationService` against the model of the Python classes.
-/

set_option linter.unusedSimpArgs false
set_option maxHeartbeats 1000000

namespace Dmr.Ksy.Hytera

@[ksy] theorem resolve_RadioRegistrationService_RrsTypes (v : Nat) : Hytera.RadioRegistrationService.RrsTypes.resolve v = EnumVal.toPy "RrsTypes" (resolveEnum Dmr.Hytera.RadioRegistrationService.RrsTypes v) :=
  resolve_eq _ (by decide) v

@[ksy ↓] theorem read_RadioRegistrationService_RrsTypes_u1 (ev sub) : readTy ev sub (.primEnum .u1 Hytera.RadioRegistrationService.RrsTypes) =
    asEnum Dmr.Hytera.RadioRegistrationService.RrsTypes readU1 >>= fun e => pure (some (EnumVal.toPy "RrsTypes" e)) :=
  enum_prim resolve_RadioRegistrationService_RrsTypes .u1 readU1 rfl ev sub

@[ksy] theorem member_RadioRegistrationService_RrsTypes_online_check_ack : Hytera.RadioRegistrationService.RrsTypes.member "online_check_ack" = pure (.enum "RrsTypes" 130) := rfl

@[ksy] theorem same_RadioRegistrationService_RrsTypes_online_check_ack (on : EnumVal Dmr.Hytera.RadioRegistrationService.RrsTypes) :
    same (EnumVal.toPy "RrsTypes" on) (.enum "RrsTypes" 130) = decide (on = .known .online_check_ack) :=
  same_known _ _ Dmr.Hytera.RadioRegistrationService.RrsTypes.online_check_ack

@[ksy] theorem member_RadioRegistrationService_RrsTypes_registration_ack : Hytera.RadioRegistrationService.RrsTypes.member "registration_ack" = pure (.enum "RrsTypes" 128) := rfl

@[ksy] theorem same_RadioRegistrationService_RrsTypes_registration_ack (on : EnumVal Dmr.Hytera.RadioRegistrationService.RrsTypes) :
    same (EnumVal.toPy "RrsTypes" on) (.enum "RrsTypes" 128) = decide (on = .known .registration_ack) :=
  same_known _ _ Dmr.Hytera.RadioRegistrationService.RrsTypes.registration_ack

/-- okdmr/kaitai/hytera/radio_registration_service.ksy:1-30 against `Dmr.Hytera.RadioRegistrationService`. -/
@[ksy ↓] theorem RadioRegistrationService_conforms (n : Nat) (sc : Scope) :
    parse (n + 2) sc Hytera.RadioRegistrationService = (fun x => view (Dmr.Hytera.RadioRegistrationService.toPy x)) <$> Dmr.Hytera.RadioRegistrationService.read := by
  rw [parse_succ]
  ksy_simp [Dmr.Hytera.RadioRegistrationService.read, Dmr.Hytera.RadioRegistrationService.toPy]

end Dmr.Ksy.Hytera
