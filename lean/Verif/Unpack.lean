import Verif.Pack
/-
The converse of `Verif/Pack.lean`: octets that hold certain fields are what one gets by writing these fields.
-/

set_option autoImplicit false

namespace Dmr.Wire

open Spec

theorem number_of_fields (m : Bytes) : ∀ (fs : List Fld) (off : Nat), off + width fs ≤ 8 * m.length → Fields m off fs →
    bitsAt m off (width fs) = number fs
  | [], off, _, _ => by
    have := bitsAt_lt m off 0
    simp only [width, number]
    omega
  | f :: fs, off, hl, h => by
    rw [width] at hl
    rw [width, number, bitsAt_add m off f.w (width fs) (by omega), h.1, number_of_fields m fs _ (by omega) h.2]

/-- Octets at `q` that hold the fields `fs` are the octets of these fields. -/
theorem slice_of_fields {m : Bytes} {fs : List Fld} {q : Nat} (h8 : width fs % 8 = 0) (hl : 8 * q + width fs ≤ 8 * m.length)
    (h : Fields m (8 * q) fs) : slice m q (width fs / 8) = pack fs := by
  have e : 8 * (width fs / 8) = width fs := by omega
  exact slice_of_bits m q _ _ (by omega) (by rw [e]; exact number_of_fields m fs _ hl h)

/-- Octets that hold the fields `fs` begin with the octets of these fields. -/
theorem begins_of_fields {m : Bytes} {fs : List Fld} {n : Nat} (hn : width fs = 8 * n) (hl : n ≤ m.length)
    (h : Fields m 0 fs) : m = pack fs ++ m.drop n := by
  have := slice_of_fields (q := 0) (by omega) (by omega) h
  rw [slice, List.drop_zero, hn, Nat.mul_div_cancel_left _ (by decide)] at this
  rw [← this, List.take_append_drop]

/-- The field of `w` bits at bit `off`. -/
def fieldAt (m : Bytes) (off w : Nat) : BitVec w := BitVec.ofNat w (bitsAt m off w)

theorem toNat_fieldAt (m : Bytes) (off w : Nat) : (fieldAt m off w).toNat = bitsAt m off w := by
  rw [fieldAt, BitVec.toNat_ofNat, Nat.mod_eq_of_lt (bitsAt_lt _ _ _)]

theorem toNat_flagAt (m : Bytes) (off : Nat) : (flagAt m off).toNat = bitsAt m off 1 := by
  have := bitsAt_lt m off 1
  unfold flagAt
  rcases (show bitsAt m off 1 = 0 ∨ bitsAt m off 1 = 1 by omega) with h | h <;> rw [h] <;> rfl

theorem take_octets {n : Nat} (x : Octets n) (rest : Bytes) : (x.val ++ rest).take n = x.val := by
  obtain ⟨v, rfl⟩ := x
  exact List.take_left

theorem drop_octets {n : Nat} (x : Octets n) (rest : Bytes) : (x.val ++ rest).drop n = rest := by
  obtain ⟨v, rfl⟩ := x
  exact List.drop_left

end Dmr.Wire
