import Verif.Py.Base
import Verif.Props.PropertiesDecoded
/-
Generated by tools/mkpyconform.py: the source file of `Homebrew.Homebrew2015` against the model of its classes.
-/

set_option autoImplicit false
set_option linter.unusedSimpArgs false
set_option maxHeartbeats 1000000

namespace Dmr.Py.ConformHomebrew

theorem Homebrew2015.file : files[23]? = some Source.Homebrew.Homebrew2015.file := rfl

theorem enum_Homebrew2015_Timeslots : library.enums.find? (fun e => e.qualified == "Homebrew.Homebrew2015.Timeslots") = some Source.Homebrew.Homebrew2015.Timeslots := enum_at 23 _ Homebrew2015.file 0 Source.Homebrew.Homebrew2015.Timeslots rfl

@[py] theorem resolve_Homebrew2015_Timeslots (v : Nat) : resolve library "Homebrew.Homebrew2015.Timeslots" (.pv (.int (v : Int))) =
    pure (.pv (EnumVal.toPy "Timeslots" (resolveEnum Dmr.Homebrew.Homebrew2015.Timeslots v))) := run_resolve Source.Homebrew.Homebrew2015.Timeslots enum_Homebrew2015_Timeslots (by decide) v

theorem enum_Homebrew2015_CallTypes : library.enums.find? (fun e => e.qualified == "Homebrew.Homebrew2015.CallTypes") = some Source.Homebrew.Homebrew2015.CallTypes := enum_at 23 _ Homebrew2015.file 1 Source.Homebrew.Homebrew2015.CallTypes rfl

@[py] theorem resolve_Homebrew2015_CallTypes (v : Nat) : resolve library "Homebrew.Homebrew2015.CallTypes" (.pv (.int (v : Int))) =
    pure (.pv (EnumVal.toPy "CallTypes" (resolveEnum Dmr.Homebrew.Homebrew2015.CallTypes v))) := run_resolve Source.Homebrew.Homebrew2015.CallTypes enum_Homebrew2015_CallTypes (by decide) v

theorem enum_Homebrew2015_FrameTypes : library.enums.find? (fun e => e.qualified == "Homebrew.Homebrew2015.FrameTypes") = some Source.Homebrew.Homebrew2015.FrameTypes := enum_at 23 _ Homebrew2015.file 2 Source.Homebrew.Homebrew2015.FrameTypes rfl

@[py] theorem resolve_Homebrew2015_FrameTypes (v : Nat) : resolve library "Homebrew.Homebrew2015.FrameTypes" (.pv (.int (v : Int))) =
    pure (.pv (EnumVal.toPy "FrameTypes" (resolveEnum Dmr.Homebrew.Homebrew2015.FrameTypes v))) := run_resolve Source.Homebrew.Homebrew2015.FrameTypes enum_Homebrew2015_FrameTypes (by decide) v

theorem Homebrew2015_TypeMasterPing_class : library.class "Homebrew.Homebrew2015.TypeMasterPing" = some Source.Homebrew.Homebrew2015.TypeMasterPing := class_at 23 _ Homebrew2015.file 0 Source.Homebrew.Homebrew2015.TypeMasterPing rfl

/-- okdmr/kaitai/homebrew/homebrew2015.py:74-90 against `Dmr.Homebrew.Homebrew2015.TypeMasterPing`. -/
@[py] theorem Homebrew2015_TypeMasterPing_builds (n : Nat) (H : List Obj) (S : List Stream) (k : Nat) (hk : k < S.length) (s : Stream)
    (parent root : Val) : ((calls library (n + 3)).construct "Homebrew.Homebrew2015.TypeMasterPing" [.io k, parent, root]).run ⟨H, S.set k s⟩ =
      after Dmr.Homebrew.Homebrew2015.TypeMasterPing.read s (fun e s' => .raise e ⟨H, S.set k s'⟩)
        (built Dmr.Homebrew.Homebrew2015.TypeMasterPing.toPy k parent root H S) := by
  rw [construct_eq library _ "Homebrew.Homebrew2015.TypeMasterPing" _ _ Homebrew2015_TypeMasterPing_class rfl rfl]
  py_run [onStream_set _ _ _ _ hk, hk, Dmr.Homebrew.Homebrew2015.TypeMasterPing.read, Dmr.Homebrew.Homebrew2015.TypeMasterPing.toPy]

@[py] theorem Homebrew2015_TypeMasterPing_place (io parent root : Val) (b : Nat) (x : Dmr.Homebrew.Homebrew2015.TypeMasterPing) :
    place io parent root b x.toPy = (.obj b, placeObj io parent root b x.toPy) :=
  place_part _ _ _ _ _ _ (by decide)

theorem Homebrew2015_TypeRepeaterPong_class : library.class "Homebrew.Homebrew2015.TypeRepeaterPong" = some Source.Homebrew.Homebrew2015.TypeRepeaterPong := class_at 23 _ Homebrew2015.file 1 Source.Homebrew.Homebrew2015.TypeRepeaterPong rfl

/-- okdmr/kaitai/homebrew/homebrew2015.py:92-108 against `Dmr.Homebrew.Homebrew2015.TypeRepeaterPong`. -/
@[py] theorem Homebrew2015_TypeRepeaterPong_builds (n : Nat) (H : List Obj) (S : List Stream) (k : Nat) (hk : k < S.length) (s : Stream)
    (parent root : Val) : ((calls library (n + 3)).construct "Homebrew.Homebrew2015.TypeRepeaterPong" [.io k, parent, root]).run ⟨H, S.set k s⟩ =
      after Dmr.Homebrew.Homebrew2015.TypeRepeaterPong.read s (fun e s' => .raise e ⟨H, S.set k s'⟩)
        (built Dmr.Homebrew.Homebrew2015.TypeRepeaterPong.toPy k parent root H S) := by
  rw [construct_eq library _ "Homebrew.Homebrew2015.TypeRepeaterPong" _ _ Homebrew2015_TypeRepeaterPong_class rfl rfl]
  py_run [onStream_set _ _ _ _ hk, hk, Dmr.Homebrew.Homebrew2015.TypeRepeaterPong.read, Dmr.Homebrew.Homebrew2015.TypeRepeaterPong.toPy]

@[py] theorem Homebrew2015_TypeRepeaterPong_place (io parent root : Val) (b : Nat) (x : Dmr.Homebrew.Homebrew2015.TypeRepeaterPong) :
    place io parent root b x.toPy = (.obj b, placeObj io parent root b x.toPy) :=
  place_part _ _ _ _ _ _ (by decide)

theorem Homebrew2015_TypeRepeaterClosing_class : library.class "Homebrew.Homebrew2015.TypeRepeaterClosing" = some Source.Homebrew.Homebrew2015.TypeRepeaterClosing := class_at 23 _ Homebrew2015.file 10 Source.Homebrew.Homebrew2015.TypeRepeaterClosing rfl

/-- okdmr/kaitai/homebrew/homebrew2015.py:243-256 against `Dmr.Homebrew.Homebrew2015.TypeRepeaterClosing`. -/
@[py] theorem Homebrew2015_TypeRepeaterClosing_builds (n : Nat) (H : List Obj) (S : List Stream) (k : Nat) (hk : k < S.length) (s : Stream)
    (parent root : Val) : ((calls library (n + 3)).construct "Homebrew.Homebrew2015.TypeRepeaterClosing" [.io k, parent, root]).run ⟨H, S.set k s⟩ =
      after Dmr.Homebrew.Homebrew2015.TypeRepeaterClosing.read s (fun e s' => .raise e ⟨H, S.set k s'⟩)
        (built Dmr.Homebrew.Homebrew2015.TypeRepeaterClosing.toPy k parent root H S) := by
  rw [construct_eq library _ "Homebrew.Homebrew2015.TypeRepeaterClosing" _ _ Homebrew2015_TypeRepeaterClosing_class rfl rfl]
  py_run [onStream_set _ _ _ _ hk, hk, Dmr.Homebrew.Homebrew2015.TypeRepeaterClosing.read, Dmr.Homebrew.Homebrew2015.TypeRepeaterClosing.toPy]

@[py] theorem Homebrew2015_TypeRepeaterClosing_place (io parent root : Val) (b : Nat) (x : Dmr.Homebrew.Homebrew2015.TypeRepeaterClosing) :
    place io parent root b x.toPy = (.obj b, placeObj io parent root b x.toPy) :=
  place_part _ _ _ _ _ _ (by decide)

theorem Homebrew2015_TypeRepeaterConfiguration_class : library.class "Homebrew.Homebrew2015.TypeRepeaterConfiguration" = some Source.Homebrew.Homebrew2015.TypeRepeaterConfiguration := class_at 23 _ Homebrew2015.file 11 Source.Homebrew.Homebrew2015.TypeRepeaterConfiguration rfl

/-- okdmr/kaitai/homebrew/homebrew2015.py:258-280 against `Dmr.Homebrew.Homebrew2015.TypeRepeaterConfiguration`. -/
@[py] theorem Homebrew2015_TypeRepeaterConfiguration_builds (n : Nat) (H : List Obj) (S : List Stream) (k : Nat) (hk : k < S.length) (s : Stream)
    (parent root : Val) : ((calls library (n + 3)).construct "Homebrew.Homebrew2015.TypeRepeaterConfiguration" [.io k, parent, root]).run ⟨H, S.set k s⟩ =
      after Dmr.Homebrew.Homebrew2015.TypeRepeaterConfiguration.read s (fun e s' => .raise e ⟨H, S.set k s'⟩)
        (built Dmr.Homebrew.Homebrew2015.TypeRepeaterConfiguration.toPy k parent root H S) := by
  rw [construct_eq library _ "Homebrew.Homebrew2015.TypeRepeaterConfiguration" _ _ Homebrew2015_TypeRepeaterConfiguration_class rfl rfl]
  py_run [onStream_set _ _ _ _ hk, hk, Dmr.Homebrew.Homebrew2015.TypeRepeaterConfiguration.read, Dmr.Homebrew.Homebrew2015.TypeRepeaterConfiguration.toPy]

@[py] theorem Homebrew2015_TypeRepeaterConfiguration_place (io parent root : Val) (b : Nat) (x : Dmr.Homebrew.Homebrew2015.TypeRepeaterConfiguration) :
    place io parent root b x.toPy = (.obj b, placeObj io parent root b x.toPy) :=
  place_part _ _ _ _ _ _ (by decide)

theorem Homebrew2015_TypeRepeaterConfigurationOrClosing_class : library.class "Homebrew.Homebrew2015.TypeRepeaterConfigurationOrClosing" = some Source.Homebrew.Homebrew2015.TypeRepeaterConfigurationOrClosing := class_at 23 _ Homebrew2015.file 2 Source.Homebrew.Homebrew2015.TypeRepeaterConfigurationOrClosing rfl


@[py] theorem Homebrew2015_TypeRepeaterConfigurationOrClosing_place (io parent root : Val) (b : Nat) (x : Dmr.Homebrew.Homebrew2015.TypeRepeaterConfigurationOrClosing) :
    place io parent root b x.toPy = (.obj b, placeObj io parent root b x.toPy) :=
  place_part _ _ _ _ _ _ (by decide)

theorem Homebrew2015_TypeRepeaterLoginResponse_class : library.class "Homebrew.Homebrew2015.TypeRepeaterLoginResponse" = some Source.Homebrew.Homebrew2015.TypeRepeaterLoginResponse := class_at 23 _ Homebrew2015.file 3 Source.Homebrew.Homebrew2015.TypeRepeaterLoginResponse rfl

/-- okdmr/kaitai/homebrew/homebrew2015.py:126-135 against `Dmr.Homebrew.Homebrew2015.TypeRepeaterLoginResponse`. -/
@[py] theorem Homebrew2015_TypeRepeaterLoginResponse_builds (n : Nat) (H : List Obj) (S : List Stream) (k : Nat) (hk : k < S.length) (s : Stream)
    (parent root : Val) : ((calls library (n + 3)).construct "Homebrew.Homebrew2015.TypeRepeaterLoginResponse" [.io k, parent, root]).run ⟨H, S.set k s⟩ =
      after Dmr.Homebrew.Homebrew2015.TypeRepeaterLoginResponse.read s (fun e s' => .raise e ⟨H, S.set k s'⟩)
        (built Dmr.Homebrew.Homebrew2015.TypeRepeaterLoginResponse.toPy k parent root H S) := by
  rw [construct_eq library _ "Homebrew.Homebrew2015.TypeRepeaterLoginResponse" _ _ Homebrew2015_TypeRepeaterLoginResponse_class rfl rfl]
  py_run [onStream_set _ _ _ _ hk, hk, Dmr.Homebrew.Homebrew2015.TypeRepeaterLoginResponse.read, Dmr.Homebrew.Homebrew2015.TypeRepeaterLoginResponse.toPy]

@[py] theorem Homebrew2015_TypeRepeaterLoginResponse_place (io parent root : Val) (b : Nat) (x : Dmr.Homebrew.Homebrew2015.TypeRepeaterLoginResponse) :
    place io parent root b x.toPy = (.obj b, placeObj io parent root b x.toPy) :=
  place_part _ _ _ _ _ _ (by decide)

theorem Homebrew2015_TypeRepeaterLoginRequest_class : library.class "Homebrew.Homebrew2015.TypeRepeaterLoginRequest" = some Source.Homebrew.Homebrew2015.TypeRepeaterLoginRequest := class_at 23 _ Homebrew2015.file 4 Source.Homebrew.Homebrew2015.TypeRepeaterLoginRequest rfl

/-- okdmr/kaitai/homebrew/homebrew2015.py:137-145 against `Dmr.Homebrew.Homebrew2015.TypeRepeaterLoginRequest`. -/
@[py] theorem Homebrew2015_TypeRepeaterLoginRequest_builds (n : Nat) (H : List Obj) (S : List Stream) (k : Nat) (hk : k < S.length) (s : Stream)
    (parent root : Val) : ((calls library (n + 3)).construct "Homebrew.Homebrew2015.TypeRepeaterLoginRequest" [.io k, parent, root]).run ⟨H, S.set k s⟩ =
      after Dmr.Homebrew.Homebrew2015.TypeRepeaterLoginRequest.read s (fun e s' => .raise e ⟨H, S.set k s'⟩)
        (built Dmr.Homebrew.Homebrew2015.TypeRepeaterLoginRequest.toPy k parent root H S) := by
  rw [construct_eq library _ "Homebrew.Homebrew2015.TypeRepeaterLoginRequest" _ _ Homebrew2015_TypeRepeaterLoginRequest_class rfl rfl]
  py_run [onStream_set _ _ _ _ hk, hk, Dmr.Homebrew.Homebrew2015.TypeRepeaterLoginRequest.read, Dmr.Homebrew.Homebrew2015.TypeRepeaterLoginRequest.toPy]

@[py] theorem Homebrew2015_TypeRepeaterLoginRequest_place (io parent root : Val) (b : Nat) (x : Dmr.Homebrew.Homebrew2015.TypeRepeaterLoginRequest) :
    place io parent root b x.toPy = (.obj b, placeObj io parent root b x.toPy) :=
  place_part _ _ _ _ _ _ (by decide)

theorem Homebrew2015_TypeMasterNotAccept_class : library.class "Homebrew.Homebrew2015.TypeMasterNotAccept" = some Source.Homebrew.Homebrew2015.TypeMasterNotAccept := class_at 23 _ Homebrew2015.file 5 Source.Homebrew.Homebrew2015.TypeMasterNotAccept rfl

/-- okdmr/kaitai/homebrew/homebrew2015.py:147-163 against `Dmr.Homebrew.Homebrew2015.TypeMasterNotAccept`. -/
@[py] theorem Homebrew2015_TypeMasterNotAccept_builds (n : Nat) (H : List Obj) (S : List Stream) (k : Nat) (hk : k < S.length) (s : Stream)
    (parent root : Val) : ((calls library (n + 3)).construct "Homebrew.Homebrew2015.TypeMasterNotAccept" [.io k, parent, root]).run ⟨H, S.set k s⟩ =
      after Dmr.Homebrew.Homebrew2015.TypeMasterNotAccept.read s (fun e s' => .raise e ⟨H, S.set k s'⟩)
        (built Dmr.Homebrew.Homebrew2015.TypeMasterNotAccept.toPy k parent root H S) := by
  rw [construct_eq library _ "Homebrew.Homebrew2015.TypeMasterNotAccept" _ _ Homebrew2015_TypeMasterNotAccept_class rfl rfl]
  py_run [onStream_set _ _ _ _ hk, hk, Dmr.Homebrew.Homebrew2015.TypeMasterNotAccept.read, Dmr.Homebrew.Homebrew2015.TypeMasterNotAccept.toPy]

@[py] theorem Homebrew2015_TypeMasterNotAccept_place (io parent root : Val) (b : Nat) (x : Dmr.Homebrew.Homebrew2015.TypeMasterNotAccept) :
    place io parent root b x.toPy = (.obj b, placeObj io parent root b x.toPy) :=
  place_part _ _ _ _ _ _ (by decide)

theorem Homebrew2015_TypeMasterRepeaterAck_class : library.class "Homebrew.Homebrew2015.TypeMasterRepeaterAck" = some Source.Homebrew.Homebrew2015.TypeMasterRepeaterAck := class_at 23 _ Homebrew2015.file 6 Source.Homebrew.Homebrew2015.TypeMasterRepeaterAck rfl

/-- okdmr/kaitai/homebrew/homebrew2015.py:165-183 against `Dmr.Homebrew.Homebrew2015.TypeMasterRepeaterAck`. -/
@[py] theorem Homebrew2015_TypeMasterRepeaterAck_builds (n : Nat) (H : List Obj) (S : List Stream) (k : Nat) (hk : k < S.length) (s : Stream)
    (parent root : Val) : ((calls library (n + 3)).construct "Homebrew.Homebrew2015.TypeMasterRepeaterAck" [.io k, parent, root]).run ⟨H, S.set k s⟩ =
      after Dmr.Homebrew.Homebrew2015.TypeMasterRepeaterAck.read s (fun e s' => .raise e ⟨H, S.set k s'⟩)
        (built Dmr.Homebrew.Homebrew2015.TypeMasterRepeaterAck.toPy k parent root H S) := by
  rw [construct_eq library _ "Homebrew.Homebrew2015.TypeMasterRepeaterAck" _ _ Homebrew2015_TypeMasterRepeaterAck_class rfl rfl]
  py_run [onStream_set _ _ _ _ hk, hk, Dmr.Homebrew.Homebrew2015.TypeMasterRepeaterAck.read, Dmr.Homebrew.Homebrew2015.TypeMasterRepeaterAck.toPy]

@[py] theorem Homebrew2015_TypeMasterRepeaterAck_place (io parent root : Val) (b : Nat) (x : Dmr.Homebrew.Homebrew2015.TypeMasterRepeaterAck) :
    place io parent root b x.toPy = (.obj b, placeObj io parent root b x.toPy) :=
  place_part _ _ _ _ _ _ (by decide)

theorem Homebrew2015_TypeMasterClosing_class : library.class "Homebrew.Homebrew2015.TypeMasterClosing" = some Source.Homebrew.Homebrew2015.TypeMasterClosing := class_at 23 _ Homebrew2015.file 7 Source.Homebrew.Homebrew2015.TypeMasterClosing rfl

/-- okdmr/kaitai/homebrew/homebrew2015.py:185-198 against `Dmr.Homebrew.Homebrew2015.TypeMasterClosing`. -/
@[py] theorem Homebrew2015_TypeMasterClosing_builds (n : Nat) (H : List Obj) (S : List Stream) (k : Nat) (hk : k < S.length) (s : Stream)
    (parent root : Val) : ((calls library (n + 3)).construct "Homebrew.Homebrew2015.TypeMasterClosing" [.io k, parent, root]).run ⟨H, S.set k s⟩ =
      after Dmr.Homebrew.Homebrew2015.TypeMasterClosing.read s (fun e s' => .raise e ⟨H, S.set k s'⟩)
        (built Dmr.Homebrew.Homebrew2015.TypeMasterClosing.toPy k parent root H S) := by
  rw [construct_eq library _ "Homebrew.Homebrew2015.TypeMasterClosing" _ _ Homebrew2015_TypeMasterClosing_class rfl rfl]
  py_run [onStream_set _ _ _ _ hk, hk, Dmr.Homebrew.Homebrew2015.TypeMasterClosing.read, Dmr.Homebrew.Homebrew2015.TypeMasterClosing.toPy]

@[py] theorem Homebrew2015_TypeMasterClosing_place (io parent root : Val) (b : Nat) (x : Dmr.Homebrew.Homebrew2015.TypeMasterClosing) :
    place io parent root b x.toPy = (.obj b, placeObj io parent root b x.toPy) :=
  place_part _ _ _ _ _ _ (by decide)

theorem Homebrew2015_TypeDmrData_class : library.class "Homebrew.Homebrew2015.TypeDmrData" = some Source.Homebrew.Homebrew2015.TypeDmrData := class_at 23 _ Homebrew2015.file 8 Source.Homebrew.Homebrew2015.TypeDmrData rfl

/-- okdmr/kaitai/homebrew/homebrew2015.py:200-230 against `Dmr.Homebrew.Homebrew2015.TypeDmrData`. -/
@[py] theorem Homebrew2015_TypeDmrData_builds (n : Nat) (H : List Obj) (S : List Stream) (k : Nat) (hk : k < S.length) (s : Stream)
    (parent root : Val) : ((calls library (n + 3)).construct "Homebrew.Homebrew2015.TypeDmrData" [.io k, parent, root]).run ⟨H, S.set k s⟩ =
      after Dmr.Homebrew.Homebrew2015.TypeDmrData.read s (fun e s' => .raise e ⟨H, S.set k s'⟩)
        (built Dmr.Homebrew.Homebrew2015.TypeDmrData.toPy k parent root H S) := by
  rw [construct_eq library _ "Homebrew.Homebrew2015.TypeDmrData" _ _ Homebrew2015_TypeDmrData_class rfl rfl]
  py_run [onStream_set _ _ _ _ hk, hk, Dmr.Homebrew.Homebrew2015.TypeDmrData.read, Dmr.Homebrew.Homebrew2015.TypeDmrData.toPy]

@[py] theorem Homebrew2015_TypeDmrData_place (io parent root : Val) (b : Nat) (x : Dmr.Homebrew.Homebrew2015.TypeDmrData) :
    place io parent root b x.toPy = (.obj b, placeObj io parent root b x.toPy) :=
  place_part _ _ _ _ _ _ (by decide)

theorem Homebrew2015_TypeRepeaterOptions_class : library.class "Homebrew.Homebrew2015.TypeRepeaterOptions" = some Source.Homebrew.Homebrew2015.TypeRepeaterOptions := class_at 23 _ Homebrew2015.file 9 Source.Homebrew.Homebrew2015.TypeRepeaterOptions rfl

/-- okdmr/kaitai/homebrew/homebrew2015.py:232-241 against `Dmr.Homebrew.Homebrew2015.TypeRepeaterOptions`. -/
@[py] theorem Homebrew2015_TypeRepeaterOptions_builds (n : Nat) (H : List Obj) (S : List Stream) (k : Nat) (hk : k < S.length) (s : Stream)
    (parent root : Val) : ((calls library (n + 3)).construct "Homebrew.Homebrew2015.TypeRepeaterOptions" [.io k, parent, root]).run ⟨H, S.set k s⟩ =
      after Dmr.Homebrew.Homebrew2015.TypeRepeaterOptions.read s (fun e s' => .raise e ⟨H, S.set k s'⟩)
        (built Dmr.Homebrew.Homebrew2015.TypeRepeaterOptions.toPy k parent root H S) := by
  rw [construct_eq library _ "Homebrew.Homebrew2015.TypeRepeaterOptions" _ _ Homebrew2015_TypeRepeaterOptions_class rfl rfl]
  py_run [onStream_set _ _ _ _ hk, hk, Dmr.Homebrew.Homebrew2015.TypeRepeaterOptions.read, Dmr.Homebrew.Homebrew2015.TypeRepeaterOptions.toPy]

@[py] theorem Homebrew2015_TypeRepeaterOptions_place (io parent root : Val) (b : Nat) (x : Dmr.Homebrew.Homebrew2015.TypeRepeaterOptions) :
    place io parent root b x.toPy = (.obj b, placeObj io parent root b x.toPy) :=
  place_part _ _ _ _ _ _ (by decide)

theorem Homebrew2015_class : library.class "Homebrew.Homebrew2015" = some Source.Homebrew.Homebrew2015 := class_at 23 _ Homebrew2015.file 12 Source.Homebrew.Homebrew2015 rfl

@[py] theorem Homebrew2015_property (x : String) : library.property "Homebrew.Homebrew2015" x = Source.Homebrew.Homebrew2015.properties.lookup x :=
  property_of _ _ _ _ Homebrew2015_class

/-- okdmr/kaitai/homebrew/homebrew2015.py:110-124: it evaluates the property `fifth_letter` of its `_root`, which remembers the letter. -/
theorem Homebrew2015_TypeRepeaterConfigurationOrClosing_builds_at (n : Nat) (H : List Obj) (S : List Stream) (k : Nat) (hk : k < S.length) (s : Stream)
    (p : Nat) (a2 a3 a4 : Val) (hp : H[p]? = some ⟨"Homebrew.Homebrew2015", [("_io", .io k), ("_parent", a2), ("_root", a3), ("command_prefix", a4)]⟩) (parent : Val) :
    ((calls library (n + 5)).construct "Homebrew.Homebrew2015.TypeRepeaterConfigurationOrClosing" [.io k, parent, .obj p]).run ⟨H, S.set k s⟩ =
      after Dmr.Homebrew.Homebrew2015.computeFifthLetter s (fun e s' => .raise e ⟨H, S.set k s'⟩) fun letter s' => 
        after (Dmr.Homebrew.Homebrew2015.TypeRepeaterConfigurationOrClosing.readData letter) s'
          (fun e s' => .raise e ⟨H.set p ⟨"Homebrew.Homebrew2015", [("_io", .io k), ("_parent", a2), ("_root", a3), ("command_prefix", a4), ("_m_fifth_letter", .pv (.str letter))]⟩, S.set k s'⟩)
          fun x s' => .ok (.obj H.length) ⟨H.set p ⟨"Homebrew.Homebrew2015", [("_io", .io k), ("_parent", a2), ("_root", a3), ("command_prefix", a4), ("_m_fifth_letter", .pv (.str letter))]⟩ ++
            placeObj (.io k) parent (.obj p) H.length (Dmr.Homebrew.Homebrew2015.TypeRepeaterConfigurationOrClosing.toPy ⟨x⟩), S.set k s'⟩ := by
  rw [construct_eq library _ "Homebrew.Homebrew2015.TypeRepeaterConfigurationOrClosing" _ _ Homebrew2015_TypeRepeaterConfigurationOrClosing_class rfl rfl]
  py_run [onStream_set _ _ _ _ hk, hk, fetch_old hp, store_old hp, fetch_changed hp, after_seek, after_pos, Source.Homebrew.Homebrew2015, Dmr.Homebrew.Homebrew2015.computeFifthLetter,
    Dmr.Homebrew.Homebrew2015.TypeRepeaterConfigurationOrClosing.readData, Dmr.Homebrew.Homebrew2015.TypeRepeaterConfigurationOrClosing.toPy,
    Dmr.Homebrew.Homebrew2015.TypeRepeaterConfigurationOrClosing.DataUnion.toPy]

@[py] theorem Homebrew2015_TypeRepeaterConfigurationOrClosing_builds (n : Nat) (H T : List Obj) (S : List Stream) (k : Nat) (hk : k < S.length) (s : Stream)
    (a2 a3 a4 parent : Val) :
    ((calls library (n + 5)).construct "Homebrew.Homebrew2015.TypeRepeaterConfigurationOrClosing" [.io k, parent, .obj H.length]).run
        ⟨H ++ ⟨"Homebrew.Homebrew2015", [("_io", .io k), ("_parent", a2), ("_root", a3), ("command_prefix", a4)]⟩ :: T, S.set k s⟩ =
      after Dmr.Homebrew.Homebrew2015.computeFifthLetter s (fun e s' => .raise e ⟨H ++ ⟨"Homebrew.Homebrew2015", [("_io", .io k), ("_parent", a2), ("_root", a3), ("command_prefix", a4)]⟩ :: T, S.set k s'⟩) fun letter s' => 
        after (Dmr.Homebrew.Homebrew2015.TypeRepeaterConfigurationOrClosing.readData letter) s'
          (fun e s' => .raise e ⟨H ++ ⟨"Homebrew.Homebrew2015", [("_io", .io k), ("_parent", a2), ("_root", a3), ("command_prefix", a4), ("_m_fifth_letter", .pv (.str letter))]⟩ :: T, S.set k s'⟩)
          fun x s' => .ok (.obj (H.length + (T.length + 1))) ⟨H ++ ⟨"Homebrew.Homebrew2015", [("_io", .io k), ("_parent", a2), ("_root", a3), ("command_prefix", a4), ("_m_fifth_letter", .pv (.str letter))]⟩ ::
            (T ++ placeObj (.io k) parent (.obj H.length) (H.length + (T.length + 1)) (Dmr.Homebrew.Homebrew2015.TypeRepeaterConfigurationOrClosing.toPy ⟨x⟩)), S.set k s'⟩ := by
  rw [Homebrew2015_TypeRepeaterConfigurationOrClosing_builds_at n (H ++ ⟨"Homebrew.Homebrew2015", [("_io", .io k), ("_parent", a2), ("_root", a3), ("command_prefix", a4)]⟩ :: T) S k hk s H.length a2 a3 a4 (by simp) parent]
  simp only [List.length_append, List.length_cons, List.set_append_right, Nat.le_refl, Nat.sub_self, List.set_cons_zero, List.append_assoc, List.cons_append]

theorem Homebrew2015_letter {t t3 s : Stream} {on : PyStr} {r : Nat} (h : Dmr.Homebrew.Homebrew2015.computeFifthLetter t = (.ok on, t3)) (ht : t.pos = 4)
    (h4 : readU4be t3 = (.ok r, s)) : on = [Char.ofNat (r / 2 ^ 24)] := by
  obtain ⟨h1, h2⟩ := Dmr.Properties.letter_of (show Dmr.Homebrew.Homebrew2015.computeFifthLetter t = _ from h)
  have h3 := Dmr.Properties.id_letter h1 (by rw [h2]; exact ht) (by rw [h2]) h4
  rw [h1] at h3
  cases h3
  rfl

/-- okdmr/kaitai/homebrew/homebrew2015.py:15-291 against `Dmr.Homebrew.Homebrew2015`, for a packet at the beginning of its stream (`fifth_letter` looks at the fifth octet of the stream). -/
theorem Homebrew2015_builds (n : Nat) (H : List Obj) (S : List Stream) (k : Nat) (hk : k < S.length) (s : Stream) (hs : s.pos = 0) :
    ((calls library (n + 7)).construct "Homebrew.Homebrew2015" [.io k, .pv .none, .pv .none]).run ⟨H, S.set k s⟩ =
      after Dmr.Homebrew.Homebrew2015.read s (fun e s' => .raise e ⟨H, S.set k s'⟩)
        (built Dmr.Homebrew.Homebrew2015.toPy k (.pv .none) (.pv .none) H S) := by
  rw [construct_eq library _ "Homebrew.Homebrew2015" _ _ Homebrew2015_class rfl rfl]
  py_run [onStream_set _ _ _ _ hk, hk, Dmr.Homebrew.Homebrew2015.read, Dmr.Homebrew.Homebrew2015.readCommandData, Dmr.Homebrew.Homebrew2015.toPy, Dmr.Homebrew.Homebrew2015.CommandDataUnion.toPy,
    Dmr.Homebrew.Homebrew2015.TypeRepeaterConfigurationOrClosing.read, Dmr.Homebrew.Homebrew2015.TypeRepeaterConfigurationOrClosing.readData, Dmr.Homebrew.Homebrew2015.CommandDataUnion.fifthLetter, Option.bind_some, Option.bind_none]
  refine after_congr_ok fun b s1 h1 => chosen_congr fun cmd hcmd => ?_
  have hpos : s1.pos = 4 := by
    obtain ⟨_, s0, h0, h1⟩ := Dmr.Hytera.of_bind_ok h1
    cases h0
    unfold readBytesNotAligned at h1
    dsimp only at h1
    split at h1
    · rename_i hl
      cases h1
      simp only [List.length_take, List.length_drop] at hl ⊢
      omega
    · cases h1
  repeat' (first | with_reducible rfl | refine if_congr Iff.rfl ?_ ?_)
  refine after_congr_ok fun letter s2 h2 => ?_
  by_cases hL : letter = "L".toList
  · rw [if_pos hL, if_pos hL]
    rw [hL]
    py_same
    rfl
  · rw [if_neg hL, if_neg hL]
    refine after_congr_ok fun x s3 h3 => ?_
    have : letter = [Char.ofNat (x.repeater_id / 2 ^ 24)] := by
      unfold Dmr.Homebrew.Homebrew2015.TypeRepeaterConfiguration.read at h3
      obtain ⟨r, _, h4, h3⟩ := Dmr.Hytera.of_bind_ok h3
      have hr : x.repeater_id = r := by
        repeat (obtain ⟨_, _, _, h3⟩ := Dmr.Hytera.of_bind_ok h3)
        cases h3
        rfl
      rw [hr]
      exact Homebrew2015_letter h2 hpos h4
    rw [this]

@[py] theorem Homebrew2015_short (n k : Nat) : (calls library (n + 7)).construct "Homebrew.Homebrew2015" [.io k] =
    (calls library (n + 7)).construct "Homebrew.Homebrew2015" [.io k, .pv .none, .pv .none] := construct_short _ _ _ _ Homebrew2015_class rfl _

@[py] theorem Homebrew2015_place (io parent root : Val) (b : Nat) (x : Dmr.Homebrew.Homebrew2015) :
    place io parent root b x.toPy = (.obj b, placeObj io (.pv .none) (.obj b) b x.toPy) :=
  place_file _ _ _ _ _ _ (by decide)

end Dmr.Py.ConformHomebrew
