import Verif.Props.DecodersHomebrew
import Verif.Props.DecodersEtsi
import Verif.Model.EnumNames
/-
C76: a position report of the MMDVM protocol and a position in full link control are the same seven octets.
-/

set_option autoImplicit false

namespace Dmr.Wire

open Spec Homebrew

/-- The two objects say the same: the same numbers, and the same name for the size of the position error. -/
def SamePosition (p : Homebrew.Mmdvm2020.TypeRadioPosition) (g : Etsi.FullLinkControl.GpsInfoLcPdu) : Prop :=
  p.reserved = g.reserved ∧ p.longitude = g.longitude ∧ p.latitude = g.latitude ∧
    ∃ e e', p.position_error = .known e ∧ g.position_error = .known e' ∧ e.pyName = e'.pyName ∧ e.toNat = e'.toNat

/-- The octets of a position. -/
def positionBytes (reserved : BitVec 4) (error : BitVec 3) (longitude : BitVec 25) (latitude : BitVec 24) : Bytes :=
  pack f[reserved, error, longitude, latitude]

theorem positionBytes_inj (r r' : BitVec 4) (e e' : BitVec 3) (lo lo' : BitVec 25) (la la' : BitVec 24) :
    positionBytes r e lo la = positionBytes r' e' lo' la' ↔ r = r' ∧ e = e' ∧ lo = lo' ∧ la = la' := by
  constructor
  · intro h
    have h := congrArg beVal h
    rw [positionBytes, positionBytes, beVal_pack _ (by simp [width]), beVal_pack _ (by simp [width])] at h
    simp only [number, width, ofBitVec_v, ofBitVec_w, Nat.add_zero, pow_zero, Nat.mul_one, Nat.reduceAdd, Nat.reducePow] at h
    have h1 := e.isLt; have h2 := e'.isLt; have h3 := lo.isLt; have h4 := lo'.isLt; have h5 := la.isLt; have h6 := la'.isLt
    refine ⟨BitVec.eq_of_toNat_eq ?_, BitVec.eq_of_toNat_eq ?_, BitVec.eq_of_toNat_eq ?_, BitVec.eq_of_toNat_eq ?_⟩ <;> omega
  · rintro ⟨rfl, rfl, rfl, rfl⟩
    rfl

theorem errors_agree (v v' : Nat) (hv : v < 8) (hv' : v' < 8) :
    (∃ e e', resolveEnum Homebrew.Mmdvm2020.PositionErrors v = .known e ∧
      resolveEnum Etsi.FullLinkControl.PositionErrors v' = .known e' ∧ e.pyName = e'.pyName ∧ e.toNat = e'.toNat) ↔ v = v' := by
  have key : ∀ i : Fin 8, ∃ e, resolveEnum Homebrew.Mmdvm2020.PositionErrors i.val = .known e ∧ e.toNat = i.val ∧
      ∃ e', resolveEnum Etsi.FullLinkControl.PositionErrors i.val = .known e' ∧ e'.toNat = i.val ∧ e.pyName = e'.pyName := by
    intro i
    match i with
    | 0 => exact ⟨_, rfl, rfl, _, rfl, rfl, rfl⟩
    | 1 => exact ⟨_, rfl, rfl, _, rfl, rfl, rfl⟩
    | 2 => exact ⟨_, rfl, rfl, _, rfl, rfl, rfl⟩
    | 3 => exact ⟨_, rfl, rfl, _, rfl, rfl, rfl⟩
    | 4 => exact ⟨_, rfl, rfl, _, rfl, rfl, rfl⟩
    | 5 => exact ⟨_, rfl, rfl, _, rfl, rfl, rfl⟩
    | 6 => exact ⟨_, rfl, rfl, _, rfl, rfl, rfl⟩
    | 7 => exact ⟨_, rfl, rfl, _, rfl, rfl, rfl⟩
  obtain ⟨e, h1, h2, e2, h3, h4, h5⟩ := key ⟨v, hv⟩
  obtain ⟨f, k1, k2, f2, k3, k4, k5⟩ := key ⟨v', hv'⟩
  dsimp only at *
  constructor
  · rintro ⟨a, a', ha, ha', -, hn⟩
    rw [h1] at ha
    rw [k3] at ha'
    cases ha; cases ha'
    omega
  · rintro rfl
    exact ⟨e, e2, h1, h3, h5, by omega⟩

theorem slice_mid {p m t : Bytes} {q n : Nat} (hp : p.length = q) (hm : m.length = n) : slice (p ++ m ++ t) q n = m := by
  subst hp hm
  rw [slice, List.append_assoc, List.drop_left, List.take_left]

/-- Octets 7 to 13 of a position report and octets 2 to 8 of a full link control are the same if and only if the objects say the same. -/
theorem C76_position (b c : Bytes) (x : Homebrew.Mmdvm2020) (y : Etsi.FullLinkControl)
    (p : Homebrew.Mmdvm2020.TypeRadioPosition) (g : Etsi.FullLinkControl.GpsInfoLcPdu)
    (hb : fromBytes Homebrew.Mmdvm2020.read b = .ok x) (hp : x.command_data = some (.typeRadioPosition p))
    (hc : fromBytes Etsi.FullLinkControl.read c = .ok y) (hg : y.specific_data = some (.gpsInfoLcPdu g)) :
    slice b 7 7 = slice c 2 7 ↔ SamePosition p g := by
  obtain ⟨msg, rest, -, rfl, rfl⟩ | ⟨_, _, _, -, rfl⟩ := (C57_mmdvm b x).1 hb
  rotate_left
  · cases hp
  obtain ⟨protect, res, fid, m, last, rfl, rfl⟩ | ⟨_, _, _, _, _, -, -, rfl⟩ := (C57_flc c y).1 hc
  rotate_left
  · cases hg
  cases msg with
  | position radio r e lo la =>
    cases m with
    | gps r' e' lo' la' =>
      cases hp
      cases hg
      have e1 : (Mm.position radio r e lo la).bytes = (asc "DMRG" ++ pack f[radio]) ++ positionBytes r e lo la := by
        rw [List.append_assoc, positionBytes, ← pack_append _ _ (by simp [width]) (by simp [width])]
        rfl
      have e2 : (Flc.gps r' e' lo' la').bytes protect res fid = pack f[protect, res, 8#6, fid] ++ positionBytes r' e' lo' la' := by
        rw [positionBytes, ← pack_append _ _ (by simp [width]) (by simp [width])]
        rfl
      rw [e1, e2, slice_mid (by rw [List.length_append, length_pack]; simp [width, asc]) (by rw [positionBytes, length_pack]; simp [width]),
        slice_mid (by rw [length_pack]; simp [width]) (by rw [positionBytes, length_pack]; simp [width]), positionBytes_inj]
      unfold SamePosition
      dsimp only
      rw [errors_agree _ _ e.isLt e'.isLt, BitVec.toNat_inj, BitVec.toNat_inj, BitVec.toNat_inj, BitVec.toNat_inj]
      tauto
    | _ => cases hg
  | _ => cases hp

/-- A position report of radio 2623266, 12.8° N, 22.5° E. -/
def report : Bytes := asc "DMRG" ++ [0x28, 0x07, 0x22, 0x04, 0x20, 0, 0, 0x12, 0x34, 0x56]

/-- The same position in a full link control with a CRC. -/
def linkControl : Bytes := [0x08, 0, 0x04, 0x20, 0, 0, 0x12, 0x34, 0x56, 1, 2, 3]

example : ∃ x p y g, fromBytes Homebrew.Mmdvm2020.read report = .ok x ∧ x.command_data = some (.typeRadioPosition p) ∧
    fromBytes Etsi.FullLinkControl.read linkControl = .ok y ∧ y.specific_data = some (.gpsInfoLcPdu g) ∧
    slice report 7 7 = slice linkControl 2 7 ∧ p.longitude = 0x200000 ∧ g.latitude = 0x123456 :=
  ⟨_, _, _, _, by rfl, by rfl, by rfl, by rfl, by decide +kernel, by rfl, by rfl⟩

/-- One more bit of error size: not the same. -/
example : ∃ x p y g, fromBytes Homebrew.Mmdvm2020.read report = .ok x ∧ x.command_data = some (.typeRadioPosition p) ∧
    fromBytes Etsi.FullLinkControl.read (linkControl.set 2 0x06) = .ok y ∧ y.specific_data = some (.gpsInfoLcPdu g) ∧
    ¬ slice report 7 7 = slice (linkControl.set 2 0x06) 2 7 ∧ ¬ SamePosition p g := by
  refine ⟨_, _, _, _, by rfl, by rfl, by rfl, by rfl, by decide +kernel, ?_⟩
  rintro ⟨-, -, -, e, e', h, h', -, hn⟩
  cases h; cases h'
  cases hn

end Dmr.Wire
