import Verif.Py.Base
import Verif.Py.Conform.RadioIp
/-
Generated by tools/mkpyconform.py: the source file of `Hytera.RadioRegistrationService` against the model of its classes.
-/

set_option autoImplicit false
set_option linter.unusedSimpArgs false
set_option maxHeartbeats 1000000

namespace Dmr.Py.ConformHytera

theorem RadioRegistrationService.file : files[14]? = some Source.Hytera.RadioRegistrationService.file := rfl

theorem enum_RadioRegistrationService_RrsTypes : library.enums.find? (fun e => e.qualified == "Hytera.RadioRegistrationService.RrsTypes") = some Source.Hytera.RadioRegistrationService.RrsTypes := enum_at 14 _ RadioRegistrationService.file 0 Source.Hytera.RadioRegistrationService.RrsTypes rfl

@[py] theorem resolve_RadioRegistrationService_RrsTypes (v : Nat) : resolve library "Hytera.RadioRegistrationService.RrsTypes" (.pv (.int (v : Int))) =
    pure (.pv (EnumVal.toPy "RrsTypes" (resolveEnum Dmr.Hytera.RadioRegistrationService.RrsTypes v))) := run_resolve Source.Hytera.RadioRegistrationService.RrsTypes enum_RadioRegistrationService_RrsTypes (by decide) v

@[py] theorem member_RadioRegistrationService_RrsTypes_online_check_ack : member library "Hytera.RadioRegistrationService.RrsTypes" "online_check_ack" = pure (.pv (.enum "RrsTypes" 130)) := member_of enum_RadioRegistrationService_RrsTypes rfl

@[py] theorem same_RadioRegistrationService_RrsTypes_online_check_ack (on : EnumVal Dmr.Hytera.RadioRegistrationService.RrsTypes) :
    same (.pv (EnumVal.toPy "RrsTypes" on)) (.pv (.enum "RrsTypes" 130)) = decide (on = .known .online_check_ack) :=
  same_known _ _ Dmr.Hytera.RadioRegistrationService.RrsTypes.online_check_ack

@[py] theorem member_RadioRegistrationService_RrsTypes_registration_ack : member library "Hytera.RadioRegistrationService.RrsTypes" "registration_ack" = pure (.pv (.enum "RrsTypes" 128)) := member_of enum_RadioRegistrationService_RrsTypes rfl

@[py] theorem same_RadioRegistrationService_RrsTypes_registration_ack (on : EnumVal Dmr.Hytera.RadioRegistrationService.RrsTypes) :
    same (.pv (EnumVal.toPy "RrsTypes" on)) (.pv (.enum "RrsTypes" 128)) = decide (on = .known .registration_ack) :=
  same_known _ _ Dmr.Hytera.RadioRegistrationService.RrsTypes.registration_ack

theorem RadioRegistrationService_class : library.class "Hytera.RadioRegistrationService" = some Source.Hytera.RadioRegistrationService := class_at 14 _ RadioRegistrationService.file 0 Source.Hytera.RadioRegistrationService rfl

/-- okdmr/kaitai/hytera/radio_registration_service.py:17-49 against `Dmr.Hytera.RadioRegistrationService`. -/
@[py] theorem RadioRegistrationService_builds (n : Nat) (H : List Obj) (S : List Stream) (k : Nat) (hk : k < S.length) (s : Stream)
    (parent root : Val) : ((calls library (n + 5)).construct "Hytera.RadioRegistrationService" [.io k, parent, root]).run ⟨H, S.set k s⟩ =
      after Dmr.Hytera.RadioRegistrationService.read s (fun e s' => .raise e ⟨H, S.set k s'⟩)
        (built Dmr.Hytera.RadioRegistrationService.toPy k parent root H S) := by
  rw [construct_eq library _ "Hytera.RadioRegistrationService" _ _ RadioRegistrationService_class rfl rfl]
  py_run [onStream_set _ _ _ _ hk, hk, Dmr.Hytera.RadioRegistrationService.read, Dmr.Hytera.RadioRegistrationService.toPy]

@[py] theorem RadioRegistrationService_short (n k : Nat) : (calls library (n + 5)).construct "Hytera.RadioRegistrationService" [.io k] =
    (calls library (n + 5)).construct "Hytera.RadioRegistrationService" [.io k, .pv .none, .pv .none] := construct_short _ _ _ _ RadioRegistrationService_class rfl _

@[py] theorem RadioRegistrationService_place (io parent root : Val) (b : Nat) (x : Dmr.Hytera.RadioRegistrationService) :
    place io parent root b x.toPy = (.obj b, placeObj io (.pv .none) (.obj b) b x.toPy) :=
  place_file _ _ _ _ _ _ (by decide)

end Dmr.Py.ConformHytera
