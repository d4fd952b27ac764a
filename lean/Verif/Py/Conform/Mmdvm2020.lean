import Verif.Py.Base
import Verif.Props.PropertiesDecoded
/-
Generated by tools/mkpyconform.py: the source file of `Homebrew.Mmdvm2020` against the model of its classes.
-/

set_option autoImplicit false
set_option linter.unusedSimpArgs false
set_option maxHeartbeats 1000000

namespace Dmr.Py.ConformHomebrew

theorem Mmdvm2020.file : files[24]? = some Source.Homebrew.Mmdvm2020.file := rfl

theorem enum_Mmdvm2020_TalkerAliasTypes : library.enums.find? (fun e => e.qualified == "Homebrew.Mmdvm2020.TalkerAliasTypes") = some Source.Homebrew.Mmdvm2020.TalkerAliasTypes := enum_at 24 _ Mmdvm2020.file 0 Source.Homebrew.Mmdvm2020.TalkerAliasTypes rfl

@[py] theorem resolve_Mmdvm2020_TalkerAliasTypes (v : Nat) : resolve library "Homebrew.Mmdvm2020.TalkerAliasTypes" (.pv (.int (v : Int))) =
    pure (.pv (EnumVal.toPy "TalkerAliasTypes" (resolveEnum Dmr.Homebrew.Mmdvm2020.TalkerAliasTypes v))) := run_resolve Source.Homebrew.Mmdvm2020.TalkerAliasTypes enum_Mmdvm2020_TalkerAliasTypes (by decide) v

theorem enum_Mmdvm2020_FrameTypes : library.enums.find? (fun e => e.qualified == "Homebrew.Mmdvm2020.FrameTypes") = some Source.Homebrew.Mmdvm2020.FrameTypes := enum_at 24 _ Mmdvm2020.file 1 Source.Homebrew.Mmdvm2020.FrameTypes rfl

@[py] theorem resolve_Mmdvm2020_FrameTypes (v : Nat) : resolve library "Homebrew.Mmdvm2020.FrameTypes" (.pv (.int (v : Int))) =
    pure (.pv (EnumVal.toPy "FrameTypes" (resolveEnum Dmr.Homebrew.Mmdvm2020.FrameTypes v))) := run_resolve Source.Homebrew.Mmdvm2020.FrameTypes enum_Mmdvm2020_FrameTypes (by decide) v

theorem enum_Mmdvm2020_CallTypes : library.enums.find? (fun e => e.qualified == "Homebrew.Mmdvm2020.CallTypes") = some Source.Homebrew.Mmdvm2020.CallTypes := enum_at 24 _ Mmdvm2020.file 2 Source.Homebrew.Mmdvm2020.CallTypes rfl

@[py] theorem resolve_Mmdvm2020_CallTypes (v : Nat) : resolve library "Homebrew.Mmdvm2020.CallTypes" (.pv (.int (v : Int))) =
    pure (.pv (EnumVal.toPy "CallTypes" (resolveEnum Dmr.Homebrew.Mmdvm2020.CallTypes v))) := run_resolve Source.Homebrew.Mmdvm2020.CallTypes enum_Mmdvm2020_CallTypes (by decide) v

theorem enum_Mmdvm2020_PositionErrors : library.enums.find? (fun e => e.qualified == "Homebrew.Mmdvm2020.PositionErrors") = some Source.Homebrew.Mmdvm2020.PositionErrors := enum_at 24 _ Mmdvm2020.file 3 Source.Homebrew.Mmdvm2020.PositionErrors rfl

@[py] theorem resolve_Mmdvm2020_PositionErrors (v : Nat) : resolve library "Homebrew.Mmdvm2020.PositionErrors" (.pv (.int (v : Int))) =
    pure (.pv (EnumVal.toPy "PositionErrors" (resolveEnum Dmr.Homebrew.Mmdvm2020.PositionErrors v))) := run_resolve Source.Homebrew.Mmdvm2020.PositionErrors enum_Mmdvm2020_PositionErrors (by decide) v

theorem enum_Mmdvm2020_Timeslots : library.enums.find? (fun e => e.qualified == "Homebrew.Mmdvm2020.Timeslots") = some Source.Homebrew.Mmdvm2020.Timeslots := enum_at 24 _ Mmdvm2020.file 4 Source.Homebrew.Mmdvm2020.Timeslots rfl

@[py] theorem resolve_Mmdvm2020_Timeslots (v : Nat) : resolve library "Homebrew.Mmdvm2020.Timeslots" (.pv (.int (v : Int))) =
    pure (.pv (EnumVal.toPy "Timeslots" (resolveEnum Dmr.Homebrew.Mmdvm2020.Timeslots v))) := run_resolve Source.Homebrew.Mmdvm2020.Timeslots enum_Mmdvm2020_Timeslots (by decide) v

theorem Mmdvm2020_TypeMasterPong_class : library.class "Homebrew.Mmdvm2020.TypeMasterPong" = some Source.Homebrew.Mmdvm2020.TypeMasterPong := class_at 24 _ Mmdvm2020.file 0 Source.Homebrew.Mmdvm2020.TypeMasterPong rfl

/-- okdmr/kaitai/homebrew/mmdvm2020.py:96-112 against `Dmr.Homebrew.Mmdvm2020.TypeMasterPong`. -/
@[py] theorem Mmdvm2020_TypeMasterPong_builds (n : Nat) (H : List Obj) (S : List Stream) (k : Nat) (hk : k < S.length) (s : Stream)
    (parent root : Val) : ((calls library (n + 3)).construct "Homebrew.Mmdvm2020.TypeMasterPong" [.io k, parent, root]).run ⟨H, S.set k s⟩ =
      after Dmr.Homebrew.Mmdvm2020.TypeMasterPong.read s (fun e s' => .raise e ⟨H, S.set k s'⟩)
        (built Dmr.Homebrew.Mmdvm2020.TypeMasterPong.toPy k parent root H S) := by
  rw [construct_eq library _ "Homebrew.Mmdvm2020.TypeMasterPong" _ _ Mmdvm2020_TypeMasterPong_class rfl rfl]
  py_run [onStream_set _ _ _ _ hk, hk, Dmr.Homebrew.Mmdvm2020.TypeMasterPong.read, Dmr.Homebrew.Mmdvm2020.TypeMasterPong.toPy]

@[py] theorem Mmdvm2020_TypeMasterPong_place (io parent root : Val) (b : Nat) (x : Dmr.Homebrew.Mmdvm2020.TypeMasterPong) :
    place io parent root b x.toPy = (.obj b, placeObj io parent root b x.toPy) :=
  place_part _ _ _ _ _ _ (by decide)

theorem Mmdvm2020_TypeRadioPosition_class : library.class "Homebrew.Mmdvm2020.TypeRadioPosition" = some Source.Homebrew.Mmdvm2020.TypeRadioPosition := class_at 24 _ Mmdvm2020.file 1 Source.Homebrew.Mmdvm2020.TypeRadioPosition rfl

/-- okdmr/kaitai/homebrew/mmdvm2020.py:114-130 against `Dmr.Homebrew.Mmdvm2020.TypeRadioPosition`. -/
@[py] theorem Mmdvm2020_TypeRadioPosition_builds (n : Nat) (H : List Obj) (S : List Stream) (k : Nat) (hk : k < S.length) (s : Stream)
    (parent root : Val) : ((calls library (n + 3)).construct "Homebrew.Mmdvm2020.TypeRadioPosition" [.io k, parent, root]).run ⟨H, S.set k s⟩ =
      after Dmr.Homebrew.Mmdvm2020.TypeRadioPosition.read s (fun e s' => .raise e ⟨H, S.set k s'⟩)
        (built Dmr.Homebrew.Mmdvm2020.TypeRadioPosition.toPy k parent root H S) := by
  rw [construct_eq library _ "Homebrew.Mmdvm2020.TypeRadioPosition" _ _ Mmdvm2020_TypeRadioPosition_class rfl rfl]
  py_run [onStream_set _ _ _ _ hk, hk, Dmr.Homebrew.Mmdvm2020.TypeRadioPosition.read, Dmr.Homebrew.Mmdvm2020.TypeRadioPosition.toPy]

@[py] theorem Mmdvm2020_TypeRadioPosition_place (io parent root : Val) (b : Nat) (x : Dmr.Homebrew.Mmdvm2020.TypeRadioPosition) :
    place io parent root b x.toPy = (.obj b, placeObj io parent root b x.toPy) :=
  place_part _ _ _ _ _ _ (by decide)

theorem Mmdvm2020_TypeTalkerAlias_class : library.class "Homebrew.Mmdvm2020.TypeTalkerAlias" = some Source.Homebrew.Mmdvm2020.TypeTalkerAlias := class_at 24 _ Mmdvm2020.file 2 Source.Homebrew.Mmdvm2020.TypeTalkerAlias rfl

/-- okdmr/kaitai/homebrew/mmdvm2020.py:132-145 against `Dmr.Homebrew.Mmdvm2020.TypeTalkerAlias`. -/
@[py] theorem Mmdvm2020_TypeTalkerAlias_builds (n : Nat) (H : List Obj) (S : List Stream) (k : Nat) (hk : k < S.length) (s : Stream)
    (parent root : Val) : ((calls library (n + 3)).construct "Homebrew.Mmdvm2020.TypeTalkerAlias" [.io k, parent, root]).run ⟨H, S.set k s⟩ =
      after Dmr.Homebrew.Mmdvm2020.TypeTalkerAlias.read s (fun e s' => .raise e ⟨H, S.set k s'⟩)
        (built Dmr.Homebrew.Mmdvm2020.TypeTalkerAlias.toPy k parent root H S) := by
  rw [construct_eq library _ "Homebrew.Mmdvm2020.TypeTalkerAlias" _ _ Mmdvm2020_TypeTalkerAlias_class rfl rfl]
  py_run [onStream_set _ _ _ _ hk, hk, Dmr.Homebrew.Mmdvm2020.TypeTalkerAlias.read, Dmr.Homebrew.Mmdvm2020.TypeTalkerAlias.toPy]

@[py] theorem Mmdvm2020_TypeTalkerAlias_place (io parent root : Val) (b : Nat) (x : Dmr.Homebrew.Mmdvm2020.TypeTalkerAlias) :
    place io parent root b x.toPy = (.obj b, placeObj io parent root b x.toPy) :=
  place_part _ _ _ _ _ _ (by decide)

theorem Mmdvm2020_TypeRepeaterClosing_class : library.class "Homebrew.Mmdvm2020.TypeRepeaterClosing" = some Source.Homebrew.Mmdvm2020.TypeRepeaterClosing := class_at 24 _ Mmdvm2020.file 13 Source.Homebrew.Mmdvm2020.TypeRepeaterClosing rfl

/-- okdmr/kaitai/homebrew/mmdvm2020.py:300-313 against `Dmr.Homebrew.Mmdvm2020.TypeRepeaterClosing`. -/
@[py] theorem Mmdvm2020_TypeRepeaterClosing_builds (n : Nat) (H : List Obj) (S : List Stream) (k : Nat) (hk : k < S.length) (s : Stream)
    (parent root : Val) : ((calls library (n + 3)).construct "Homebrew.Mmdvm2020.TypeRepeaterClosing" [.io k, parent, root]).run ⟨H, S.set k s⟩ =
      after Dmr.Homebrew.Mmdvm2020.TypeRepeaterClosing.read s (fun e s' => .raise e ⟨H, S.set k s'⟩)
        (built Dmr.Homebrew.Mmdvm2020.TypeRepeaterClosing.toPy k parent root H S) := by
  rw [construct_eq library _ "Homebrew.Mmdvm2020.TypeRepeaterClosing" _ _ Mmdvm2020_TypeRepeaterClosing_class rfl rfl]
  py_run [onStream_set _ _ _ _ hk, hk, Dmr.Homebrew.Mmdvm2020.TypeRepeaterClosing.read, Dmr.Homebrew.Mmdvm2020.TypeRepeaterClosing.toPy]

@[py] theorem Mmdvm2020_TypeRepeaterClosing_place (io parent root : Val) (b : Nat) (x : Dmr.Homebrew.Mmdvm2020.TypeRepeaterClosing) :
    place io parent root b x.toPy = (.obj b, placeObj io parent root b x.toPy) :=
  place_part _ _ _ _ _ _ (by decide)

theorem Mmdvm2020_TypeRepeaterConfiguration_class : library.class "Homebrew.Mmdvm2020.TypeRepeaterConfiguration" = some Source.Homebrew.Mmdvm2020.TypeRepeaterConfiguration := class_at 24 _ Mmdvm2020.file 14 Source.Homebrew.Mmdvm2020.TypeRepeaterConfiguration rfl

/-- okdmr/kaitai/homebrew/mmdvm2020.py:315-338 against `Dmr.Homebrew.Mmdvm2020.TypeRepeaterConfiguration`. -/
@[py] theorem Mmdvm2020_TypeRepeaterConfiguration_builds (n : Nat) (H : List Obj) (S : List Stream) (k : Nat) (hk : k < S.length) (s : Stream)
    (parent root : Val) : ((calls library (n + 3)).construct "Homebrew.Mmdvm2020.TypeRepeaterConfiguration" [.io k, parent, root]).run ⟨H, S.set k s⟩ =
      after Dmr.Homebrew.Mmdvm2020.TypeRepeaterConfiguration.read s (fun e s' => .raise e ⟨H, S.set k s'⟩)
        (built Dmr.Homebrew.Mmdvm2020.TypeRepeaterConfiguration.toPy k parent root H S) := by
  rw [construct_eq library _ "Homebrew.Mmdvm2020.TypeRepeaterConfiguration" _ _ Mmdvm2020_TypeRepeaterConfiguration_class rfl rfl]
  py_run [onStream_set _ _ _ _ hk, hk, Dmr.Homebrew.Mmdvm2020.TypeRepeaterConfiguration.read, Dmr.Homebrew.Mmdvm2020.TypeRepeaterConfiguration.toPy]

@[py] theorem Mmdvm2020_TypeRepeaterConfiguration_place (io parent root : Val) (b : Nat) (x : Dmr.Homebrew.Mmdvm2020.TypeRepeaterConfiguration) :
    place io parent root b x.toPy = (.obj b, placeObj io parent root b x.toPy) :=
  place_part _ _ _ _ _ _ (by decide)

theorem Mmdvm2020_TypeRepeaterConfigurationOrClosing_class : library.class "Homebrew.Mmdvm2020.TypeRepeaterConfigurationOrClosing" = some Source.Homebrew.Mmdvm2020.TypeRepeaterConfigurationOrClosing := class_at 24 _ Mmdvm2020.file 3 Source.Homebrew.Mmdvm2020.TypeRepeaterConfigurationOrClosing rfl


@[py] theorem Mmdvm2020_TypeRepeaterConfigurationOrClosing_place (io parent root : Val) (b : Nat) (x : Dmr.Homebrew.Mmdvm2020.TypeRepeaterConfigurationOrClosing) :
    place io parent root b x.toPy = (.obj b, placeObj io parent root b x.toPy) :=
  place_part _ _ _ _ _ _ (by decide)

theorem Mmdvm2020_TypeRepeaterLoginResponse_class : library.class "Homebrew.Mmdvm2020.TypeRepeaterLoginResponse" = some Source.Homebrew.Mmdvm2020.TypeRepeaterLoginResponse := class_at 24 _ Mmdvm2020.file 4 Source.Homebrew.Mmdvm2020.TypeRepeaterLoginResponse rfl

/-- okdmr/kaitai/homebrew/mmdvm2020.py:163-172 against `Dmr.Homebrew.Mmdvm2020.TypeRepeaterLoginResponse`. -/
@[py] theorem Mmdvm2020_TypeRepeaterLoginResponse_builds (n : Nat) (H : List Obj) (S : List Stream) (k : Nat) (hk : k < S.length) (s : Stream)
    (parent root : Val) : ((calls library (n + 3)).construct "Homebrew.Mmdvm2020.TypeRepeaterLoginResponse" [.io k, parent, root]).run ⟨H, S.set k s⟩ =
      after Dmr.Homebrew.Mmdvm2020.TypeRepeaterLoginResponse.read s (fun e s' => .raise e ⟨H, S.set k s'⟩)
        (built Dmr.Homebrew.Mmdvm2020.TypeRepeaterLoginResponse.toPy k parent root H S) := by
  rw [construct_eq library _ "Homebrew.Mmdvm2020.TypeRepeaterLoginResponse" _ _ Mmdvm2020_TypeRepeaterLoginResponse_class rfl rfl]
  py_run [onStream_set _ _ _ _ hk, hk, Dmr.Homebrew.Mmdvm2020.TypeRepeaterLoginResponse.read, Dmr.Homebrew.Mmdvm2020.TypeRepeaterLoginResponse.toPy]

@[py] theorem Mmdvm2020_TypeRepeaterLoginResponse_place (io parent root : Val) (b : Nat) (x : Dmr.Homebrew.Mmdvm2020.TypeRepeaterLoginResponse) :
    place io parent root b x.toPy = (.obj b, placeObj io parent root b x.toPy) :=
  place_part _ _ _ _ _ _ (by decide)

theorem Mmdvm2020_TypeRepeaterLoginRequest_class : library.class "Homebrew.Mmdvm2020.TypeRepeaterLoginRequest" = some Source.Homebrew.Mmdvm2020.TypeRepeaterLoginRequest := class_at 24 _ Mmdvm2020.file 5 Source.Homebrew.Mmdvm2020.TypeRepeaterLoginRequest rfl

/-- okdmr/kaitai/homebrew/mmdvm2020.py:174-182 against `Dmr.Homebrew.Mmdvm2020.TypeRepeaterLoginRequest`. -/
@[py] theorem Mmdvm2020_TypeRepeaterLoginRequest_builds (n : Nat) (H : List Obj) (S : List Stream) (k : Nat) (hk : k < S.length) (s : Stream)
    (parent root : Val) : ((calls library (n + 3)).construct "Homebrew.Mmdvm2020.TypeRepeaterLoginRequest" [.io k, parent, root]).run ⟨H, S.set k s⟩ =
      after Dmr.Homebrew.Mmdvm2020.TypeRepeaterLoginRequest.read s (fun e s' => .raise e ⟨H, S.set k s'⟩)
        (built Dmr.Homebrew.Mmdvm2020.TypeRepeaterLoginRequest.toPy k parent root H S) := by
  rw [construct_eq library _ "Homebrew.Mmdvm2020.TypeRepeaterLoginRequest" _ _ Mmdvm2020_TypeRepeaterLoginRequest_class rfl rfl]
  py_run [onStream_set _ _ _ _ hk, hk, Dmr.Homebrew.Mmdvm2020.TypeRepeaterLoginRequest.read, Dmr.Homebrew.Mmdvm2020.TypeRepeaterLoginRequest.toPy]

@[py] theorem Mmdvm2020_TypeRepeaterLoginRequest_place (io parent root : Val) (b : Nat) (x : Dmr.Homebrew.Mmdvm2020.TypeRepeaterLoginRequest) :
    place io parent root b x.toPy = (.obj b, placeObj io parent root b x.toPy) :=
  place_part _ _ _ _ _ _ (by decide)

theorem Mmdvm2020_TypeMasterNotAccept_class : library.class "Homebrew.Mmdvm2020.TypeMasterNotAccept" = some Source.Homebrew.Mmdvm2020.TypeMasterNotAccept := class_at 24 _ Mmdvm2020.file 6 Source.Homebrew.Mmdvm2020.TypeMasterNotAccept rfl

/-- okdmr/kaitai/homebrew/mmdvm2020.py:184-200 against `Dmr.Homebrew.Mmdvm2020.TypeMasterNotAccept`. -/
@[py] theorem Mmdvm2020_TypeMasterNotAccept_builds (n : Nat) (H : List Obj) (S : List Stream) (k : Nat) (hk : k < S.length) (s : Stream)
    (parent root : Val) : ((calls library (n + 3)).construct "Homebrew.Mmdvm2020.TypeMasterNotAccept" [.io k, parent, root]).run ⟨H, S.set k s⟩ =
      after Dmr.Homebrew.Mmdvm2020.TypeMasterNotAccept.read s (fun e s' => .raise e ⟨H, S.set k s'⟩)
        (built Dmr.Homebrew.Mmdvm2020.TypeMasterNotAccept.toPy k parent root H S) := by
  rw [construct_eq library _ "Homebrew.Mmdvm2020.TypeMasterNotAccept" _ _ Mmdvm2020_TypeMasterNotAccept_class rfl rfl]
  py_run [onStream_set _ _ _ _ hk, hk, Dmr.Homebrew.Mmdvm2020.TypeMasterNotAccept.read, Dmr.Homebrew.Mmdvm2020.TypeMasterNotAccept.toPy]

@[py] theorem Mmdvm2020_TypeMasterNotAccept_place (io parent root : Val) (b : Nat) (x : Dmr.Homebrew.Mmdvm2020.TypeMasterNotAccept) :
    place io parent root b x.toPy = (.obj b, placeObj io parent root b x.toPy) :=
  place_part _ _ _ _ _ _ (by decide)

theorem Mmdvm2020_TypeUnknown_class : library.class "Homebrew.Mmdvm2020.TypeUnknown" = some Source.Homebrew.Mmdvm2020.TypeUnknown := class_at 24 _ Mmdvm2020.file 7 Source.Homebrew.Mmdvm2020.TypeUnknown rfl

/-- okdmr/kaitai/homebrew/mmdvm2020.py:202-210 against `Dmr.Homebrew.Mmdvm2020.TypeUnknown`. -/
@[py] theorem Mmdvm2020_TypeUnknown_builds (n : Nat) (H : List Obj) (S : List Stream) (k : Nat) (hk : k < S.length) (s : Stream)
    (parent root : Val) : ((calls library (n + 3)).construct "Homebrew.Mmdvm2020.TypeUnknown" [.io k, parent, root]).run ⟨H, S.set k s⟩ =
      after Dmr.Homebrew.Mmdvm2020.TypeUnknown.read s (fun e s' => .raise e ⟨H, S.set k s'⟩)
        (built Dmr.Homebrew.Mmdvm2020.TypeUnknown.toPy k parent root H S) := by
  rw [construct_eq library _ "Homebrew.Mmdvm2020.TypeUnknown" _ _ Mmdvm2020_TypeUnknown_class rfl rfl]
  py_run [onStream_set _ _ _ _ hk, hk, Dmr.Homebrew.Mmdvm2020.TypeUnknown.read, Dmr.Homebrew.Mmdvm2020.TypeUnknown.toPy]

@[py] theorem Mmdvm2020_TypeUnknown_place (io parent root : Val) (b : Nat) (x : Dmr.Homebrew.Mmdvm2020.TypeUnknown) :
    place io parent root b x.toPy = (.obj b, placeObj io parent root b x.toPy) :=
  place_part _ _ _ _ _ _ (by decide)

theorem Mmdvm2020_TypeMasterRepeaterAck_class : library.class "Homebrew.Mmdvm2020.TypeMasterRepeaterAck" = some Source.Homebrew.Mmdvm2020.TypeMasterRepeaterAck := class_at 24 _ Mmdvm2020.file 8 Source.Homebrew.Mmdvm2020.TypeMasterRepeaterAck rfl

/-- okdmr/kaitai/homebrew/mmdvm2020.py:212-228 against `Dmr.Homebrew.Mmdvm2020.TypeMasterRepeaterAck`. -/
@[py] theorem Mmdvm2020_TypeMasterRepeaterAck_builds (n : Nat) (H : List Obj) (S : List Stream) (k : Nat) (hk : k < S.length) (s : Stream)
    (parent root : Val) : ((calls library (n + 3)).construct "Homebrew.Mmdvm2020.TypeMasterRepeaterAck" [.io k, parent, root]).run ⟨H, S.set k s⟩ =
      after Dmr.Homebrew.Mmdvm2020.TypeMasterRepeaterAck.read s (fun e s' => .raise e ⟨H, S.set k s'⟩)
        (built Dmr.Homebrew.Mmdvm2020.TypeMasterRepeaterAck.toPy k parent root H S) := by
  rw [construct_eq library _ "Homebrew.Mmdvm2020.TypeMasterRepeaterAck" _ _ Mmdvm2020_TypeMasterRepeaterAck_class rfl rfl]
  py_run [onStream_set _ _ _ _ hk, hk, Dmr.Homebrew.Mmdvm2020.TypeMasterRepeaterAck.read, Dmr.Homebrew.Mmdvm2020.TypeMasterRepeaterAck.toPy]

@[py] theorem Mmdvm2020_TypeMasterRepeaterAck_place (io parent root : Val) (b : Nat) (x : Dmr.Homebrew.Mmdvm2020.TypeMasterRepeaterAck) :
    place io parent root b x.toPy = (.obj b, placeObj io parent root b x.toPy) :=
  place_part _ _ _ _ _ _ (by decide)

theorem Mmdvm2020_TypeMasterClosing_class : library.class "Homebrew.Mmdvm2020.TypeMasterClosing" = some Source.Homebrew.Mmdvm2020.TypeMasterClosing := class_at 24 _ Mmdvm2020.file 9 Source.Homebrew.Mmdvm2020.TypeMasterClosing rfl

/-- okdmr/kaitai/homebrew/mmdvm2020.py:230-243 against `Dmr.Homebrew.Mmdvm2020.TypeMasterClosing`. -/
@[py] theorem Mmdvm2020_TypeMasterClosing_builds (n : Nat) (H : List Obj) (S : List Stream) (k : Nat) (hk : k < S.length) (s : Stream)
    (parent root : Val) : ((calls library (n + 3)).construct "Homebrew.Mmdvm2020.TypeMasterClosing" [.io k, parent, root]).run ⟨H, S.set k s⟩ =
      after Dmr.Homebrew.Mmdvm2020.TypeMasterClosing.read s (fun e s' => .raise e ⟨H, S.set k s'⟩)
        (built Dmr.Homebrew.Mmdvm2020.TypeMasterClosing.toPy k parent root H S) := by
  rw [construct_eq library _ "Homebrew.Mmdvm2020.TypeMasterClosing" _ _ Mmdvm2020_TypeMasterClosing_class rfl rfl]
  py_run [onStream_set _ _ _ _ hk, hk, Dmr.Homebrew.Mmdvm2020.TypeMasterClosing.read, Dmr.Homebrew.Mmdvm2020.TypeMasterClosing.toPy]

@[py] theorem Mmdvm2020_TypeMasterClosing_place (io parent root : Val) (b : Nat) (x : Dmr.Homebrew.Mmdvm2020.TypeMasterClosing) :
    place io parent root b x.toPy = (.obj b, placeObj io parent root b x.toPy) :=
  place_part _ _ _ _ _ _ (by decide)

theorem Mmdvm2020_TypeDmrData_class : library.class "Homebrew.Mmdvm2020.TypeDmrData" = some Source.Homebrew.Mmdvm2020.TypeDmrData := class_at 24 _ Mmdvm2020.file 10 Source.Homebrew.Mmdvm2020.TypeDmrData rfl

/-- okdmr/kaitai/homebrew/mmdvm2020.py:245-275 against `Dmr.Homebrew.Mmdvm2020.TypeDmrData`. -/
@[py] theorem Mmdvm2020_TypeDmrData_builds (n : Nat) (H : List Obj) (S : List Stream) (k : Nat) (hk : k < S.length) (s : Stream)
    (parent root : Val) : ((calls library (n + 3)).construct "Homebrew.Mmdvm2020.TypeDmrData" [.io k, parent, root]).run ⟨H, S.set k s⟩ =
      after Dmr.Homebrew.Mmdvm2020.TypeDmrData.read s (fun e s' => .raise e ⟨H, S.set k s'⟩)
        (built Dmr.Homebrew.Mmdvm2020.TypeDmrData.toPy k parent root H S) := by
  rw [construct_eq library _ "Homebrew.Mmdvm2020.TypeDmrData" _ _ Mmdvm2020_TypeDmrData_class rfl rfl]
  py_run [onStream_set _ _ _ _ hk, hk, Dmr.Homebrew.Mmdvm2020.TypeDmrData.read, Dmr.Homebrew.Mmdvm2020.TypeDmrData.toPy]

@[py] theorem Mmdvm2020_TypeDmrData_place (io parent root : Val) (b : Nat) (x : Dmr.Homebrew.Mmdvm2020.TypeDmrData) :
    place io parent root b x.toPy = (.obj b, placeObj io parent root b x.toPy) :=
  place_part _ _ _ _ _ _ (by decide)

theorem Mmdvm2020_TypeRepeaterBeacon_class : library.class "Homebrew.Mmdvm2020.TypeRepeaterBeacon" = some Source.Homebrew.Mmdvm2020.TypeRepeaterBeacon := class_at 24 _ Mmdvm2020.file 11 Source.Homebrew.Mmdvm2020.TypeRepeaterBeacon rfl

/-- okdmr/kaitai/homebrew/mmdvm2020.py:277-287 against `Dmr.Homebrew.Mmdvm2020.TypeRepeaterBeacon`. -/
@[py] theorem Mmdvm2020_TypeRepeaterBeacon_builds (n : Nat) (H : List Obj) (S : List Stream) (k : Nat) (hk : k < S.length) (s : Stream)
    (parent root : Val) : ((calls library (n + 3)).construct "Homebrew.Mmdvm2020.TypeRepeaterBeacon" [.io k, parent, root]).run ⟨H, S.set k s⟩ =
      after Dmr.Homebrew.Mmdvm2020.TypeRepeaterBeacon.read s (fun e s' => .raise e ⟨H, S.set k s'⟩)
        (built Dmr.Homebrew.Mmdvm2020.TypeRepeaterBeacon.toPy k parent root H S) := by
  rw [construct_eq library _ "Homebrew.Mmdvm2020.TypeRepeaterBeacon" _ _ Mmdvm2020_TypeRepeaterBeacon_class rfl rfl]
  py_run [onStream_set _ _ _ _ hk, hk, Dmr.Homebrew.Mmdvm2020.TypeRepeaterBeacon.read, Dmr.Homebrew.Mmdvm2020.TypeRepeaterBeacon.toPy]

@[py] theorem Mmdvm2020_TypeRepeaterBeacon_place (io parent root : Val) (b : Nat) (x : Dmr.Homebrew.Mmdvm2020.TypeRepeaterBeacon) :
    place io parent root b x.toPy = (.obj b, placeObj io parent root b x.toPy) :=
  place_part _ _ _ _ _ _ (by decide)

theorem Mmdvm2020_TypeRepeaterOptions_class : library.class "Homebrew.Mmdvm2020.TypeRepeaterOptions" = some Source.Homebrew.Mmdvm2020.TypeRepeaterOptions := class_at 24 _ Mmdvm2020.file 12 Source.Homebrew.Mmdvm2020.TypeRepeaterOptions rfl

/-- okdmr/kaitai/homebrew/mmdvm2020.py:289-298 against `Dmr.Homebrew.Mmdvm2020.TypeRepeaterOptions`. -/
@[py] theorem Mmdvm2020_TypeRepeaterOptions_builds (n : Nat) (H : List Obj) (S : List Stream) (k : Nat) (hk : k < S.length) (s : Stream)
    (parent root : Val) : ((calls library (n + 3)).construct "Homebrew.Mmdvm2020.TypeRepeaterOptions" [.io k, parent, root]).run ⟨H, S.set k s⟩ =
      after Dmr.Homebrew.Mmdvm2020.TypeRepeaterOptions.read s (fun e s' => .raise e ⟨H, S.set k s'⟩)
        (built Dmr.Homebrew.Mmdvm2020.TypeRepeaterOptions.toPy k parent root H S) := by
  rw [construct_eq library _ "Homebrew.Mmdvm2020.TypeRepeaterOptions" _ _ Mmdvm2020_TypeRepeaterOptions_class rfl rfl]
  py_run [onStream_set _ _ _ _ hk, hk, Dmr.Homebrew.Mmdvm2020.TypeRepeaterOptions.read, Dmr.Homebrew.Mmdvm2020.TypeRepeaterOptions.toPy]

@[py] theorem Mmdvm2020_TypeRepeaterOptions_place (io parent root : Val) (b : Nat) (x : Dmr.Homebrew.Mmdvm2020.TypeRepeaterOptions) :
    place io parent root b x.toPy = (.obj b, placeObj io parent root b x.toPy) :=
  place_part _ _ _ _ _ _ (by decide)

theorem Mmdvm2020_TypeRepeaterPing_class : library.class "Homebrew.Mmdvm2020.TypeRepeaterPing" = some Source.Homebrew.Mmdvm2020.TypeRepeaterPing := class_at 24 _ Mmdvm2020.file 15 Source.Homebrew.Mmdvm2020.TypeRepeaterPing rfl

/-- okdmr/kaitai/homebrew/mmdvm2020.py:340-356 against `Dmr.Homebrew.Mmdvm2020.TypeRepeaterPing`. -/
@[py] theorem Mmdvm2020_TypeRepeaterPing_builds (n : Nat) (H : List Obj) (S : List Stream) (k : Nat) (hk : k < S.length) (s : Stream)
    (parent root : Val) : ((calls library (n + 3)).construct "Homebrew.Mmdvm2020.TypeRepeaterPing" [.io k, parent, root]).run ⟨H, S.set k s⟩ =
      after Dmr.Homebrew.Mmdvm2020.TypeRepeaterPing.read s (fun e s' => .raise e ⟨H, S.set k s'⟩)
        (built Dmr.Homebrew.Mmdvm2020.TypeRepeaterPing.toPy k parent root H S) := by
  rw [construct_eq library _ "Homebrew.Mmdvm2020.TypeRepeaterPing" _ _ Mmdvm2020_TypeRepeaterPing_class rfl rfl]
  py_run [onStream_set _ _ _ _ hk, hk, Dmr.Homebrew.Mmdvm2020.TypeRepeaterPing.read, Dmr.Homebrew.Mmdvm2020.TypeRepeaterPing.toPy]

@[py] theorem Mmdvm2020_TypeRepeaterPing_place (io parent root : Val) (b : Nat) (x : Dmr.Homebrew.Mmdvm2020.TypeRepeaterPing) :
    place io parent root b x.toPy = (.obj b, placeObj io parent root b x.toPy) :=
  place_part _ _ _ _ _ _ (by decide)

theorem Mmdvm2020_class : library.class "Homebrew.Mmdvm2020" = some Source.Homebrew.Mmdvm2020 := class_at 24 _ Mmdvm2020.file 16 Source.Homebrew.Mmdvm2020 rfl

@[py] theorem Mmdvm2020_property (x : String) : library.property "Homebrew.Mmdvm2020" x = Source.Homebrew.Mmdvm2020.properties.lookup x :=
  property_of _ _ _ _ Mmdvm2020_class

/-- okdmr/kaitai/homebrew/mmdvm2020.py: it evaluates the property `fifth_letter` of its `_root`, which remembers the letter. -/
theorem Mmdvm2020_TypeRepeaterConfigurationOrClosing_builds_at (n : Nat) (H : List Obj) (S : List Stream) (k : Nat) (hk : k < S.length) (s : Stream)
    (p : Nat) (a2 a3 a4 : Val) (hp : H[p]? = some ⟨"Homebrew.Mmdvm2020", [("_io", .io k), ("_parent", a2), ("_root", a3), ("command_prefix", a4)]⟩) (parent : Val) :
    ((calls library (n + 5)).construct "Homebrew.Mmdvm2020.TypeRepeaterConfigurationOrClosing" [.io k, parent, .obj p]).run ⟨H, S.set k s⟩ =
      after Dmr.Homebrew.Mmdvm2020.computeFifthLetter s (fun e s' => .raise e ⟨H, S.set k s'⟩) fun letter s' => 
        after (Dmr.Homebrew.Mmdvm2020.TypeRepeaterConfigurationOrClosing.readData letter) s'
          (fun e s' => .raise e ⟨H.set p ⟨"Homebrew.Mmdvm2020", [("_io", .io k), ("_parent", a2), ("_root", a3), ("command_prefix", a4), ("_m_fifth_letter", .pv (.str letter))]⟩, S.set k s'⟩)
          fun x s' => .ok (.obj H.length) ⟨H.set p ⟨"Homebrew.Mmdvm2020", [("_io", .io k), ("_parent", a2), ("_root", a3), ("command_prefix", a4), ("_m_fifth_letter", .pv (.str letter))]⟩ ++
            placeObj (.io k) parent (.obj p) H.length (Dmr.Homebrew.Mmdvm2020.TypeRepeaterConfigurationOrClosing.toPy ⟨x⟩), S.set k s'⟩ := by
  rw [construct_eq library _ "Homebrew.Mmdvm2020.TypeRepeaterConfigurationOrClosing" _ _ Mmdvm2020_TypeRepeaterConfigurationOrClosing_class rfl rfl]
  py_run [onStream_set _ _ _ _ hk, hk, fetch_old hp, store_old hp, fetch_changed hp, after_seek, after_pos, Source.Homebrew.Mmdvm2020, Dmr.Homebrew.Mmdvm2020.computeFifthLetter,
    Dmr.Homebrew.Mmdvm2020.TypeRepeaterConfigurationOrClosing.readData, Dmr.Homebrew.Mmdvm2020.TypeRepeaterConfigurationOrClosing.toPy,
    Dmr.Homebrew.Mmdvm2020.TypeRepeaterConfigurationOrClosing.DataUnion.toPy]

@[py] theorem Mmdvm2020_TypeRepeaterConfigurationOrClosing_builds (n : Nat) (H T : List Obj) (S : List Stream) (k : Nat) (hk : k < S.length) (s : Stream)
    (a2 a3 a4 parent : Val) :
    ((calls library (n + 5)).construct "Homebrew.Mmdvm2020.TypeRepeaterConfigurationOrClosing" [.io k, parent, .obj H.length]).run
        ⟨H ++ ⟨"Homebrew.Mmdvm2020", [("_io", .io k), ("_parent", a2), ("_root", a3), ("command_prefix", a4)]⟩ :: T, S.set k s⟩ =
      after Dmr.Homebrew.Mmdvm2020.computeFifthLetter s (fun e s' => .raise e ⟨H ++ ⟨"Homebrew.Mmdvm2020", [("_io", .io k), ("_parent", a2), ("_root", a3), ("command_prefix", a4)]⟩ :: T, S.set k s'⟩) fun letter s' => 
        after (Dmr.Homebrew.Mmdvm2020.TypeRepeaterConfigurationOrClosing.readData letter) s'
          (fun e s' => .raise e ⟨H ++ ⟨"Homebrew.Mmdvm2020", [("_io", .io k), ("_parent", a2), ("_root", a3), ("command_prefix", a4), ("_m_fifth_letter", .pv (.str letter))]⟩ :: T, S.set k s'⟩)
          fun x s' => .ok (.obj (H.length + (T.length + 1))) ⟨H ++ ⟨"Homebrew.Mmdvm2020", [("_io", .io k), ("_parent", a2), ("_root", a3), ("command_prefix", a4), ("_m_fifth_letter", .pv (.str letter))]⟩ ::
            (T ++ placeObj (.io k) parent (.obj H.length) (H.length + (T.length + 1)) (Dmr.Homebrew.Mmdvm2020.TypeRepeaterConfigurationOrClosing.toPy ⟨x⟩)), S.set k s'⟩ := by
  rw [Mmdvm2020_TypeRepeaterConfigurationOrClosing_builds_at n (H ++ ⟨"Homebrew.Mmdvm2020", [("_io", .io k), ("_parent", a2), ("_root", a3), ("command_prefix", a4)]⟩ :: T) S k hk s H.length a2 a3 a4 (by simp) parent]
  simp only [List.length_append, List.length_cons, List.set_append_right, Nat.le_refl, Nat.sub_self, List.set_cons_zero, List.append_assoc, List.cons_append]

theorem Mmdvm2020_letter {t t3 s : Stream} {on : PyStr} {r : Nat} (h : Dmr.Homebrew.Mmdvm2020.computeFifthLetter t = (.ok on, t3)) (ht : t.pos = 4)
    (h4 : readU4be t3 = (.ok r, s)) : on = [Char.ofNat (r / 2 ^ 24)] := by
  obtain ⟨h1, h2⟩ := Dmr.Properties.letter_of (show Dmr.Homebrew.Homebrew2015.computeFifthLetter t = _ from h)
  have h3 := Dmr.Properties.id_letter h1 (by rw [h2]; exact ht) (by rw [h2]) h4
  rw [h1] at h3
  cases h3
  rfl

/-- okdmr/kaitai/homebrew/mmdvm2020.py against `Dmr.Homebrew.Mmdvm2020`, for a packet at the beginning of its stream (`fifth_letter` looks at the fifth octet of the stream). -/
theorem Mmdvm2020_builds (n : Nat) (H : List Obj) (S : List Stream) (k : Nat) (hk : k < S.length) (s : Stream) (hs : s.pos = 0) :
    ((calls library (n + 7)).construct "Homebrew.Mmdvm2020" [.io k, .pv .none, .pv .none]).run ⟨H, S.set k s⟩ =
      after Dmr.Homebrew.Mmdvm2020.read s (fun e s' => .raise e ⟨H, S.set k s'⟩)
        (built Dmr.Homebrew.Mmdvm2020.toPy k (.pv .none) (.pv .none) H S) := by
  rw [construct_eq library _ "Homebrew.Mmdvm2020" _ _ Mmdvm2020_class rfl rfl]
  py_run [onStream_set _ _ _ _ hk, hk, Dmr.Homebrew.Mmdvm2020.read, Dmr.Homebrew.Mmdvm2020.readCommandData, Dmr.Homebrew.Mmdvm2020.toPy, Dmr.Homebrew.Mmdvm2020.CommandDataUnion.toPy,
    Dmr.Homebrew.Mmdvm2020.TypeRepeaterConfigurationOrClosing.read, Dmr.Homebrew.Mmdvm2020.TypeRepeaterConfigurationOrClosing.readData, Dmr.Homebrew.Mmdvm2020.CommandDataUnion.fifthLetter, Option.bind_some, Option.bind_none]
  refine after_congr_ok fun b s1 h1 => chosen_congr fun cmd hcmd => ?_
  have hpos : s1.pos = 4 := by
    obtain ⟨_, s0, h0, h1⟩ := Dmr.Hytera.of_bind_ok h1
    cases h0
    unfold readBytesNotAligned at h1
    dsimp only at h1
    split at h1
    · rename_i hl
      cases h1
      simp only [List.length_take, List.length_drop] at hl ⊢
      omega
    · cases h1
  repeat' (first | with_reducible rfl | refine if_congr Iff.rfl ?_ ?_)
  refine after_congr_ok fun letter s2 h2 => ?_
  by_cases hL : letter = "L".toList
  · rw [if_pos hL, if_pos hL]
    rw [hL]
    py_same
    rfl
  · rw [if_neg hL, if_neg hL]
    refine after_congr_ok fun x s3 h3 => ?_
    have : letter = [Char.ofNat (x.repeater_id / 2 ^ 24)] := by
      unfold Dmr.Homebrew.Mmdvm2020.TypeRepeaterConfiguration.read at h3
      obtain ⟨r, _, h4, h3⟩ := Dmr.Hytera.of_bind_ok h3
      have hr : x.repeater_id = r := by
        repeat (obtain ⟨_, _, _, h3⟩ := Dmr.Hytera.of_bind_ok h3)
        cases h3
        rfl
      rw [hr]
      exact Mmdvm2020_letter h2 hpos h4
    rw [this]

@[py] theorem Mmdvm2020_short (n k : Nat) : (calls library (n + 7)).construct "Homebrew.Mmdvm2020" [.io k] =
    (calls library (n + 7)).construct "Homebrew.Mmdvm2020" [.io k, .pv .none, .pv .none] := construct_short _ _ _ _ Mmdvm2020_class rfl _

@[py] theorem Mmdvm2020_place (io parent root : Val) (b : Nat) (x : Dmr.Homebrew.Mmdvm2020) :
    place io parent root b x.toPy = (.obj b, placeObj io (.pv .none) (.obj b) b x.toPy) :=
  place_file _ _ _ _ _ _ (by decide)

end Dmr.Py.ConformHomebrew
