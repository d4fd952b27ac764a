import Verif.Py.Base
/-
Generated by tools/mkpyconform.py: the source file of `Etsi.DmrData` against the model of its classes.
-/

set_option autoImplicit false
set_option linter.unusedSimpArgs false
set_option maxHeartbeats 1000000

namespace Dmr.Py.ConformEtsi

theorem DmrData.file : files[19]? = some Source.Etsi.DmrData.file := rfl

theorem DmrData_Rate1LastBlockUnconfirmed_class : library.class "Etsi.DmrData.Rate1LastBlockUnconfirmed" = some Source.Etsi.DmrData.Rate1LastBlockUnconfirmed := class_at 19 _ DmrData.file 0 Source.Etsi.DmrData.Rate1LastBlockUnconfirmed rfl

/-- okdmr/kaitai/etsi/dmr_data.py:26-37 against `Dmr.Etsi.DmrData.Rate1LastBlockUnconfirmed`. -/
@[py] theorem DmrData_Rate1LastBlockUnconfirmed_builds (n : Nat) (H : List Obj) (S : List Stream) (k : Nat) (hk : k < S.length) (s : Stream)
    (parent root : Val) : ((calls library (n + 3)).construct "Etsi.DmrData.Rate1LastBlockUnconfirmed" [.io k, parent, root]).run ⟨H, S.set k s⟩ =
      after Dmr.Etsi.DmrData.Rate1LastBlockUnconfirmed.read s (fun e s' => .raise e ⟨H, S.set k s'⟩)
        (built Dmr.Etsi.DmrData.Rate1LastBlockUnconfirmed.toPy k parent root H S) := by
  rw [construct_eq library _ "Etsi.DmrData.Rate1LastBlockUnconfirmed" _ _ DmrData_Rate1LastBlockUnconfirmed_class rfl rfl]
  py_run [onStream_set _ _ _ _ hk, hk, Dmr.Etsi.DmrData.Rate1LastBlockUnconfirmed.read, Dmr.Etsi.DmrData.Rate1LastBlockUnconfirmed.toPy]

@[py] theorem DmrData_Rate1LastBlockUnconfirmed_place (io parent root : Val) (b : Nat) (x : Dmr.Etsi.DmrData.Rate1LastBlockUnconfirmed) :
    place io parent root b x.toPy = (.obj b, placeObj io parent root b x.toPy) :=
  place_part _ _ _ _ _ _ (by decide)

theorem DmrData_Rate12LastBlockConfirmed_class : library.class "Etsi.DmrData.Rate12LastBlockConfirmed" = some Source.Etsi.DmrData.Rate12LastBlockConfirmed := class_at 19 _ DmrData.file 1 Source.Etsi.DmrData.Rate12LastBlockConfirmed rfl

/-- okdmr/kaitai/etsi/dmr_data.py:39-53 against `Dmr.Etsi.DmrData.Rate12LastBlockConfirmed`. -/
@[py] theorem DmrData_Rate12LastBlockConfirmed_builds (n : Nat) (H : List Obj) (S : List Stream) (k : Nat) (hk : k < S.length) (s : Stream)
    (parent root : Val) : ((calls library (n + 3)).construct "Etsi.DmrData.Rate12LastBlockConfirmed" [.io k, parent, root]).run ⟨H, S.set k s⟩ =
      after Dmr.Etsi.DmrData.Rate12LastBlockConfirmed.read s (fun e s' => .raise e ⟨H, S.set k s'⟩)
        (built Dmr.Etsi.DmrData.Rate12LastBlockConfirmed.toPy k parent root H S) := by
  rw [construct_eq library _ "Etsi.DmrData.Rate12LastBlockConfirmed" _ _ DmrData_Rate12LastBlockConfirmed_class rfl rfl]
  py_run [onStream_set _ _ _ _ hk, hk, Dmr.Etsi.DmrData.Rate12LastBlockConfirmed.read, Dmr.Etsi.DmrData.Rate12LastBlockConfirmed.toPy]

@[py] theorem DmrData_Rate12LastBlockConfirmed_place (io parent root : Val) (b : Nat) (x : Dmr.Etsi.DmrData.Rate12LastBlockConfirmed) :
    place io parent root b x.toPy = (.obj b, placeObj io parent root b x.toPy) :=
  place_part _ _ _ _ _ _ (by decide)

theorem DmrData_Rate12Confirmed_class : library.class "Etsi.DmrData.Rate12Confirmed" = some Source.Etsi.DmrData.Rate12Confirmed := class_at 19 _ DmrData.file 2 Source.Etsi.DmrData.Rate12Confirmed rfl

/-- okdmr/kaitai/etsi/dmr_data.py:55-68 against `Dmr.Etsi.DmrData.Rate12Confirmed`. -/
@[py] theorem DmrData_Rate12Confirmed_builds (n : Nat) (H : List Obj) (S : List Stream) (k : Nat) (hk : k < S.length) (s : Stream)
    (parent root : Val) : ((calls library (n + 3)).construct "Etsi.DmrData.Rate12Confirmed" [.io k, parent, root]).run ⟨H, S.set k s⟩ =
      after Dmr.Etsi.DmrData.Rate12Confirmed.read s (fun e s' => .raise e ⟨H, S.set k s'⟩)
        (built Dmr.Etsi.DmrData.Rate12Confirmed.toPy k parent root H S) := by
  rw [construct_eq library _ "Etsi.DmrData.Rate12Confirmed" _ _ DmrData_Rate12Confirmed_class rfl rfl]
  py_run [onStream_set _ _ _ _ hk, hk, Dmr.Etsi.DmrData.Rate12Confirmed.read, Dmr.Etsi.DmrData.Rate12Confirmed.toPy]

@[py] theorem DmrData_Rate12Confirmed_place (io parent root : Val) (b : Nat) (x : Dmr.Etsi.DmrData.Rate12Confirmed) :
    place io parent root b x.toPy = (.obj b, placeObj io parent root b x.toPy) :=
  place_part _ _ _ _ _ _ (by decide)

theorem DmrData_Rate34LastBlockUnconfirmed_class : library.class "Etsi.DmrData.Rate34LastBlockUnconfirmed" = some Source.Etsi.DmrData.Rate34LastBlockUnconfirmed := class_at 19 _ DmrData.file 3 Source.Etsi.DmrData.Rate34LastBlockUnconfirmed rfl

/-- okdmr/kaitai/etsi/dmr_data.py:70-81 against `Dmr.Etsi.DmrData.Rate34LastBlockUnconfirmed`. -/
@[py] theorem DmrData_Rate34LastBlockUnconfirmed_builds (n : Nat) (H : List Obj) (S : List Stream) (k : Nat) (hk : k < S.length) (s : Stream)
    (parent root : Val) : ((calls library (n + 3)).construct "Etsi.DmrData.Rate34LastBlockUnconfirmed" [.io k, parent, root]).run ⟨H, S.set k s⟩ =
      after Dmr.Etsi.DmrData.Rate34LastBlockUnconfirmed.read s (fun e s' => .raise e ⟨H, S.set k s'⟩)
        (built Dmr.Etsi.DmrData.Rate34LastBlockUnconfirmed.toPy k parent root H S) := by
  rw [construct_eq library _ "Etsi.DmrData.Rate34LastBlockUnconfirmed" _ _ DmrData_Rate34LastBlockUnconfirmed_class rfl rfl]
  py_run [onStream_set _ _ _ _ hk, hk, Dmr.Etsi.DmrData.Rate34LastBlockUnconfirmed.read, Dmr.Etsi.DmrData.Rate34LastBlockUnconfirmed.toPy]

@[py] theorem DmrData_Rate34LastBlockUnconfirmed_place (io parent root : Val) (b : Nat) (x : Dmr.Etsi.DmrData.Rate34LastBlockUnconfirmed) :
    place io parent root b x.toPy = (.obj b, placeObj io parent root b x.toPy) :=
  place_part _ _ _ _ _ _ (by decide)

theorem DmrData_Rate1LastBlockConfirmed_class : library.class "Etsi.DmrData.Rate1LastBlockConfirmed" = some Source.Etsi.DmrData.Rate1LastBlockConfirmed := class_at 19 _ DmrData.file 4 Source.Etsi.DmrData.Rate1LastBlockConfirmed rfl

/-- okdmr/kaitai/etsi/dmr_data.py:83-97 against `Dmr.Etsi.DmrData.Rate1LastBlockConfirmed`. -/
@[py] theorem DmrData_Rate1LastBlockConfirmed_builds (n : Nat) (H : List Obj) (S : List Stream) (k : Nat) (hk : k < S.length) (s : Stream)
    (parent root : Val) : ((calls library (n + 3)).construct "Etsi.DmrData.Rate1LastBlockConfirmed" [.io k, parent, root]).run ⟨H, S.set k s⟩ =
      after Dmr.Etsi.DmrData.Rate1LastBlockConfirmed.read s (fun e s' => .raise e ⟨H, S.set k s'⟩)
        (built Dmr.Etsi.DmrData.Rate1LastBlockConfirmed.toPy k parent root H S) := by
  rw [construct_eq library _ "Etsi.DmrData.Rate1LastBlockConfirmed" _ _ DmrData_Rate1LastBlockConfirmed_class rfl rfl]
  py_run [onStream_set _ _ _ _ hk, hk, Dmr.Etsi.DmrData.Rate1LastBlockConfirmed.read, Dmr.Etsi.DmrData.Rate1LastBlockConfirmed.toPy]

@[py] theorem DmrData_Rate1LastBlockConfirmed_place (io parent root : Val) (b : Nat) (x : Dmr.Etsi.DmrData.Rate1LastBlockConfirmed) :
    place io parent root b x.toPy = (.obj b, placeObj io parent root b x.toPy) :=
  place_part _ _ _ _ _ _ (by decide)

theorem DmrData_Rate1Unconfirmed_class : library.class "Etsi.DmrData.Rate1Unconfirmed" = some Source.Etsi.DmrData.Rate1Unconfirmed := class_at 19 _ DmrData.file 5 Source.Etsi.DmrData.Rate1Unconfirmed rfl

/-- okdmr/kaitai/etsi/dmr_data.py:99-109 against `Dmr.Etsi.DmrData.Rate1Unconfirmed`. -/
@[py] theorem DmrData_Rate1Unconfirmed_builds (n : Nat) (H : List Obj) (S : List Stream) (k : Nat) (hk : k < S.length) (s : Stream)
    (parent root : Val) : ((calls library (n + 3)).construct "Etsi.DmrData.Rate1Unconfirmed" [.io k, parent, root]).run ⟨H, S.set k s⟩ =
      after Dmr.Etsi.DmrData.Rate1Unconfirmed.read s (fun e s' => .raise e ⟨H, S.set k s'⟩)
        (built Dmr.Etsi.DmrData.Rate1Unconfirmed.toPy k parent root H S) := by
  rw [construct_eq library _ "Etsi.DmrData.Rate1Unconfirmed" _ _ DmrData_Rate1Unconfirmed_class rfl rfl]
  py_run [onStream_set _ _ _ _ hk, hk, Dmr.Etsi.DmrData.Rate1Unconfirmed.read, Dmr.Etsi.DmrData.Rate1Unconfirmed.toPy]

@[py] theorem DmrData_Rate1Unconfirmed_place (io parent root : Val) (b : Nat) (x : Dmr.Etsi.DmrData.Rate1Unconfirmed) :
    place io parent root b x.toPy = (.obj b, placeObj io parent root b x.toPy) :=
  place_part _ _ _ _ _ _ (by decide)

theorem DmrData_UdtLastBlock_class : library.class "Etsi.DmrData.UdtLastBlock" = some Source.Etsi.DmrData.UdtLastBlock := class_at 19 _ DmrData.file 6 Source.Etsi.DmrData.UdtLastBlock rfl

/-- okdmr/kaitai/etsi/dmr_data.py:111-122 against `Dmr.Etsi.DmrData.UdtLastBlock`. -/
@[py] theorem DmrData_UdtLastBlock_builds (n : Nat) (H : List Obj) (S : List Stream) (k : Nat) (hk : k < S.length) (s : Stream)
    (parent root : Val) : ((calls library (n + 3)).construct "Etsi.DmrData.UdtLastBlock" [.io k, parent, root]).run ⟨H, S.set k s⟩ =
      after Dmr.Etsi.DmrData.UdtLastBlock.read s (fun e s' => .raise e ⟨H, S.set k s'⟩)
        (built Dmr.Etsi.DmrData.UdtLastBlock.toPy k parent root H S) := by
  rw [construct_eq library _ "Etsi.DmrData.UdtLastBlock" _ _ DmrData_UdtLastBlock_class rfl rfl]
  py_run [onStream_set _ _ _ _ hk, hk, Dmr.Etsi.DmrData.UdtLastBlock.read, Dmr.Etsi.DmrData.UdtLastBlock.toPy]

@[py] theorem DmrData_UdtLastBlock_place (io parent root : Val) (b : Nat) (x : Dmr.Etsi.DmrData.UdtLastBlock) :
    place io parent root b x.toPy = (.obj b, placeObj io parent root b x.toPy) :=
  place_part _ _ _ _ _ _ (by decide)

theorem DmrData_Rate34Confirmed_class : library.class "Etsi.DmrData.Rate34Confirmed" = some Source.Etsi.DmrData.Rate34Confirmed := class_at 19 _ DmrData.file 7 Source.Etsi.DmrData.Rate34Confirmed rfl

/-- okdmr/kaitai/etsi/dmr_data.py:124-137 against `Dmr.Etsi.DmrData.Rate34Confirmed`. -/
@[py] theorem DmrData_Rate34Confirmed_builds (n : Nat) (H : List Obj) (S : List Stream) (k : Nat) (hk : k < S.length) (s : Stream)
    (parent root : Val) : ((calls library (n + 3)).construct "Etsi.DmrData.Rate34Confirmed" [.io k, parent, root]).run ⟨H, S.set k s⟩ =
      after Dmr.Etsi.DmrData.Rate34Confirmed.read s (fun e s' => .raise e ⟨H, S.set k s'⟩)
        (built Dmr.Etsi.DmrData.Rate34Confirmed.toPy k parent root H S) := by
  rw [construct_eq library _ "Etsi.DmrData.Rate34Confirmed" _ _ DmrData_Rate34Confirmed_class rfl rfl]
  py_run [onStream_set _ _ _ _ hk, hk, Dmr.Etsi.DmrData.Rate34Confirmed.read, Dmr.Etsi.DmrData.Rate34Confirmed.toPy]

@[py] theorem DmrData_Rate34Confirmed_place (io parent root : Val) (b : Nat) (x : Dmr.Etsi.DmrData.Rate34Confirmed) :
    place io parent root b x.toPy = (.obj b, placeObj io parent root b x.toPy) :=
  place_part _ _ _ _ _ _ (by decide)

theorem DmrData_Rate34LastBlockConfirmed_class : library.class "Etsi.DmrData.Rate34LastBlockConfirmed" = some Source.Etsi.DmrData.Rate34LastBlockConfirmed := class_at 19 _ DmrData.file 8 Source.Etsi.DmrData.Rate34LastBlockConfirmed rfl

/-- okdmr/kaitai/etsi/dmr_data.py:139-153 against `Dmr.Etsi.DmrData.Rate34LastBlockConfirmed`. -/
@[py] theorem DmrData_Rate34LastBlockConfirmed_builds (n : Nat) (H : List Obj) (S : List Stream) (k : Nat) (hk : k < S.length) (s : Stream)
    (parent root : Val) : ((calls library (n + 3)).construct "Etsi.DmrData.Rate34LastBlockConfirmed" [.io k, parent, root]).run ⟨H, S.set k s⟩ =
      after Dmr.Etsi.DmrData.Rate34LastBlockConfirmed.read s (fun e s' => .raise e ⟨H, S.set k s'⟩)
        (built Dmr.Etsi.DmrData.Rate34LastBlockConfirmed.toPy k parent root H S) := by
  rw [construct_eq library _ "Etsi.DmrData.Rate34LastBlockConfirmed" _ _ DmrData_Rate34LastBlockConfirmed_class rfl rfl]
  py_run [onStream_set _ _ _ _ hk, hk, Dmr.Etsi.DmrData.Rate34LastBlockConfirmed.read, Dmr.Etsi.DmrData.Rate34LastBlockConfirmed.toPy]

@[py] theorem DmrData_Rate34LastBlockConfirmed_place (io parent root : Val) (b : Nat) (x : Dmr.Etsi.DmrData.Rate34LastBlockConfirmed) :
    place io parent root b x.toPy = (.obj b, placeObj io parent root b x.toPy) :=
  place_part _ _ _ _ _ _ (by decide)

theorem DmrData_Rate34Unconfirmed_class : library.class "Etsi.DmrData.Rate34Unconfirmed" = some Source.Etsi.DmrData.Rate34Unconfirmed := class_at 19 _ DmrData.file 9 Source.Etsi.DmrData.Rate34Unconfirmed rfl

/-- okdmr/kaitai/etsi/dmr_data.py:155-165 against `Dmr.Etsi.DmrData.Rate34Unconfirmed`. -/
@[py] theorem DmrData_Rate34Unconfirmed_builds (n : Nat) (H : List Obj) (S : List Stream) (k : Nat) (hk : k < S.length) (s : Stream)
    (parent root : Val) : ((calls library (n + 3)).construct "Etsi.DmrData.Rate34Unconfirmed" [.io k, parent, root]).run ⟨H, S.set k s⟩ =
      after Dmr.Etsi.DmrData.Rate34Unconfirmed.read s (fun e s' => .raise e ⟨H, S.set k s'⟩)
        (built Dmr.Etsi.DmrData.Rate34Unconfirmed.toPy k parent root H S) := by
  rw [construct_eq library _ "Etsi.DmrData.Rate34Unconfirmed" _ _ DmrData_Rate34Unconfirmed_class rfl rfl]
  py_run [onStream_set _ _ _ _ hk, hk, Dmr.Etsi.DmrData.Rate34Unconfirmed.read, Dmr.Etsi.DmrData.Rate34Unconfirmed.toPy]

@[py] theorem DmrData_Rate34Unconfirmed_place (io parent root : Val) (b : Nat) (x : Dmr.Etsi.DmrData.Rate34Unconfirmed) :
    place io parent root b x.toPy = (.obj b, placeObj io parent root b x.toPy) :=
  place_part _ _ _ _ _ _ (by decide)

theorem DmrData_Rate12LastBlockUnconfirmed_class : library.class "Etsi.DmrData.Rate12LastBlockUnconfirmed" = some Source.Etsi.DmrData.Rate12LastBlockUnconfirmed := class_at 19 _ DmrData.file 10 Source.Etsi.DmrData.Rate12LastBlockUnconfirmed rfl

/-- okdmr/kaitai/etsi/dmr_data.py:167-178 against `Dmr.Etsi.DmrData.Rate12LastBlockUnconfirmed`. -/
@[py] theorem DmrData_Rate12LastBlockUnconfirmed_builds (n : Nat) (H : List Obj) (S : List Stream) (k : Nat) (hk : k < S.length) (s : Stream)
    (parent root : Val) : ((calls library (n + 3)).construct "Etsi.DmrData.Rate12LastBlockUnconfirmed" [.io k, parent, root]).run ⟨H, S.set k s⟩ =
      after Dmr.Etsi.DmrData.Rate12LastBlockUnconfirmed.read s (fun e s' => .raise e ⟨H, S.set k s'⟩)
        (built Dmr.Etsi.DmrData.Rate12LastBlockUnconfirmed.toPy k parent root H S) := by
  rw [construct_eq library _ "Etsi.DmrData.Rate12LastBlockUnconfirmed" _ _ DmrData_Rate12LastBlockUnconfirmed_class rfl rfl]
  py_run [onStream_set _ _ _ _ hk, hk, Dmr.Etsi.DmrData.Rate12LastBlockUnconfirmed.read, Dmr.Etsi.DmrData.Rate12LastBlockUnconfirmed.toPy]

@[py] theorem DmrData_Rate12LastBlockUnconfirmed_place (io parent root : Val) (b : Nat) (x : Dmr.Etsi.DmrData.Rate12LastBlockUnconfirmed) :
    place io parent root b x.toPy = (.obj b, placeObj io parent root b x.toPy) :=
  place_part _ _ _ _ _ _ (by decide)

theorem DmrData_Rate1Confirmed_class : library.class "Etsi.DmrData.Rate1Confirmed" = some Source.Etsi.DmrData.Rate1Confirmed := class_at 19 _ DmrData.file 11 Source.Etsi.DmrData.Rate1Confirmed rfl

/-- okdmr/kaitai/etsi/dmr_data.py:180-193 against `Dmr.Etsi.DmrData.Rate1Confirmed`. -/
@[py] theorem DmrData_Rate1Confirmed_builds (n : Nat) (H : List Obj) (S : List Stream) (k : Nat) (hk : k < S.length) (s : Stream)
    (parent root : Val) : ((calls library (n + 3)).construct "Etsi.DmrData.Rate1Confirmed" [.io k, parent, root]).run ⟨H, S.set k s⟩ =
      after Dmr.Etsi.DmrData.Rate1Confirmed.read s (fun e s' => .raise e ⟨H, S.set k s'⟩)
        (built Dmr.Etsi.DmrData.Rate1Confirmed.toPy k parent root H S) := by
  rw [construct_eq library _ "Etsi.DmrData.Rate1Confirmed" _ _ DmrData_Rate1Confirmed_class rfl rfl]
  py_run [onStream_set _ _ _ _ hk, hk, Dmr.Etsi.DmrData.Rate1Confirmed.read, Dmr.Etsi.DmrData.Rate1Confirmed.toPy]

@[py] theorem DmrData_Rate1Confirmed_place (io parent root : Val) (b : Nat) (x : Dmr.Etsi.DmrData.Rate1Confirmed) :
    place io parent root b x.toPy = (.obj b, placeObj io parent root b x.toPy) :=
  place_part _ _ _ _ _ _ (by decide)

theorem DmrData_Rate12Unconfirmed_class : library.class "Etsi.DmrData.Rate12Unconfirmed" = some Source.Etsi.DmrData.Rate12Unconfirmed := class_at 19 _ DmrData.file 12 Source.Etsi.DmrData.Rate12Unconfirmed rfl

/-- okdmr/kaitai/etsi/dmr_data.py:195-205 against `Dmr.Etsi.DmrData.Rate12Unconfirmed`. -/
@[py] theorem DmrData_Rate12Unconfirmed_builds (n : Nat) (H : List Obj) (S : List Stream) (k : Nat) (hk : k < S.length) (s : Stream)
    (parent root : Val) : ((calls library (n + 3)).construct "Etsi.DmrData.Rate12Unconfirmed" [.io k, parent, root]).run ⟨H, S.set k s⟩ =
      after Dmr.Etsi.DmrData.Rate12Unconfirmed.read s (fun e s' => .raise e ⟨H, S.set k s'⟩)
        (built Dmr.Etsi.DmrData.Rate12Unconfirmed.toPy k parent root H S) := by
  rw [construct_eq library _ "Etsi.DmrData.Rate12Unconfirmed" _ _ DmrData_Rate12Unconfirmed_class rfl rfl]
  py_run [onStream_set _ _ _ _ hk, hk, Dmr.Etsi.DmrData.Rate12Unconfirmed.read, Dmr.Etsi.DmrData.Rate12Unconfirmed.toPy]

@[py] theorem DmrData_Rate12Unconfirmed_place (io parent root : Val) (b : Nat) (x : Dmr.Etsi.DmrData.Rate12Unconfirmed) :
    place io parent root b x.toPy = (.obj b, placeObj io parent root b x.toPy) :=
  place_part _ _ _ _ _ _ (by decide)

theorem DmrData_class : library.class "Etsi.DmrData" = some Source.Etsi.DmrData := class_at 19 _ DmrData.file 13 Source.Etsi.DmrData rfl

/-- okdmr/kaitai/etsi/dmr_data.py:14-205 against `Dmr.Etsi.DmrData`. -/
@[py] theorem DmrData_builds (n : Nat) (H : List Obj) (S : List Stream) (k : Nat) (hk : k < S.length) (s : Stream)
    (parent root : Val) : ((calls library (n + 3)).construct "Etsi.DmrData" [.io k, parent, root]).run ⟨H, S.set k s⟩ =
      after Dmr.Etsi.DmrData.read s (fun e s' => .raise e ⟨H, S.set k s'⟩)
        (built Dmr.Etsi.DmrData.toPy k parent root H S) := by
  rw [construct_eq library _ "Etsi.DmrData" _ _ DmrData_class rfl rfl]
  py_run [onStream_set _ _ _ _ hk, hk, Dmr.Etsi.DmrData.read, Dmr.Etsi.DmrData.toPy]

@[py] theorem DmrData_short (n k : Nat) : (calls library (n + 3)).construct "Etsi.DmrData" [.io k] =
    (calls library (n + 3)).construct "Etsi.DmrData" [.io k, .pv .none, .pv .none] := construct_short _ _ _ _ DmrData_class rfl _

@[py] theorem DmrData_place (io parent root : Val) (b : Nat) (x : Dmr.Etsi.DmrData) :
    place io parent root b x.toPy = (.obj b, placeObj io (.pv .none) (.obj b) b x.toPy) :=
  place_file _ _ _ _ _ _ (by decide)

end Dmr.Py.ConformEtsi
