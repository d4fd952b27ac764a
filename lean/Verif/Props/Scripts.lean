import Verif.Py.Script.Utils
import Verif.Py.Script.Swap
import Verif.Props.Byteswap
import Verif.Props.MotorolaRounding
/-
C61: the functions of okdmr/kaitai/motorola/motorola_utils.py and okdmr/kaitai/tools/byteswap.py, as they are written (Verif/Py/Script/Source),
run by the interpreter of Verif/Py/Script/Semantics.
-/

set_option autoImplicit false

namespace Dmr.Script

open Motorola Motorola.MotorolaUtils Tools

/-! ### Specification -/

/-- The number whose groups of seven bits are the low bits of the items, the first one the most significant. -/
def groupsValue : List Nat → Nat
  | [] => 0
  | x :: xs => x % 128 * 128 ^ xs.length + groupsValue xs

/-- The number without its most significant one bit. -/
def withoutTop (v : Nat) : Nat := if v = 0 then 0 else v - 2 ^ Nat.log 2 v

/-- Whether the second highest bit of a byte is set: the sign. -/
def signBit (x : Nat) : Bool := x / 64 % 2 == 1

/-! ### Lemmas -/

theorem groupsValue_eq : ∀ l, uintvar_to_int l = groupsValue l
  | [] => rfl
  | x :: xs => by rw [uintvar_cons, groupsValue, groupsValue_eq xs]

theorem withoutTop_eq (v : Nat) : clear_msb v = withoutTop v := by
  unfold withoutTop
  split
  · next h => subst h; exact clear_msb_zero
  · next h =>
    have h1 := Nat.pow_log_le_self 2 h
    have h2 := Nat.lt_pow_succ_log_self (b := 2) (by decide) v
    rw [pow_succ] at h2
    have := clear_msb_eq (Nat.log 2 v) (v - 2 ^ Nat.log 2 v) (by omega)
    rwa [show 2 ^ Nat.log 2 v + (v - 2 ^ Nat.log 2 v) = v by omega] at this

theorem signBit_eq (x : Nat) : decide ((x &&& 0x40) > 0) = signBit x := by
  have h : (x &&& 64).testBit 6 = decide (x / 2 ^ 6 % 2 = 1) := by
    rw [Nat.testBit_and, Nat.testBit_eq_decide_div_mod_eq]
    simp [Nat.testBit]
  have h0 : x &&& 64 = if x / 64 % 2 = 1 then 64 else 0 := by
    have h2 : x &&& 64 = x &&& 2 ^ 6 := rfl
    rw [h2, Nat.and_two_pow, Nat.testBit_eq_decide_div_mod_eq]
    split <;> simp_all
  unfold signBit
  rw [h0]
  split <;> simp_all

/-! ### Numbers -/

/-- C61: `uintvar_to_int(l)` returns the number of which `l` contains the groups of seven bits, and changes nothing. -/
theorem C61_uintvar (n : Nat) (l : List Nat) (w : World) :
    ((calls scripts (n + 1)).function "motorola_utils.uintvar_to_int" [numbers l] []).run w = .ok (.pv (.int (groupsValue l))) w := by
  rw [run_uintvar, groupsValue_eq]

/-- C61: `clear_msb(x)` returns the number without its most significant one bit. -/
theorem C61_clear_msb (n : Nat) (x : Nat) (w : World) :
    ((calls scripts (n + 1)).function "motorola_utils.clear_msb" [.pv (.int x)] []).run w = .ok (.pv (.int (withoutTop x))) w := by
  rw [run_clear_msb, withoutTop_eq]

/-- C61: `sintvar_to_int(l)` returns the number of the groups without its most significant one bit — which is the sign only if the
number is negative —, with the sign of the first group; IndexError if there is no group. -/
theorem C61_sintvar (n : Nat) (l : List Nat) (w : World) :
    ((calls scripts (n + 2)).function "motorola_utils.sintvar_to_int" [numbers l] []).run w =
      match l with
      | [] => .raise .index w
      | x :: _ => .ok (.pv (.int (if signBit x then -(withoutTop (groupsValue l) : Int) else withoutTop (groupsValue l)))) w := by
  rw [run_sintvar]
  cases l with
  | nil => rfl
  | cons x xs =>
    have : sintvar_to_int (x :: xs) = .ok (if signBit x then -(withoutTop (groupsValue (x :: xs)) : Int) else withoutTop (groupsValue (x :: xs))) := by
      rw [← groupsValue_eq, ← withoutTop_eq, ← signBit_eq]
      unfold sintvar_to_int
      simp only [List.getElem?_cons_zero, decide_eq_true_eq]
      split <;> rfl
    rw [this]

/-- C61: `ufloatvar_to_float(a, b)` returns the correctly rounded sum of the number of the groups `a` and the fraction of the groups
`b`, as a sum of floats; OverflowError if the former is too large for a float. -/
theorem C61_ufloatvar (n : Nat) (a b : List Nat) (w : World) :
    ((groupsValue a : ℚ) < 2 ^ (1024 : ℤ) - 2 ^ (970 : ℤ) → ∃ r, RoundedSum (groupsValue a) ((groupsValue b : ℚ) / 128 ^ b.length) r ∧
      ((calls scripts (n + 2)).function "motorola_utils.ufloatvar_to_float" [numbers a, numbers b] []).run w = .ok (.float ⟨false, r⟩) w) ∧
    ((2 : ℚ) ^ (1024 : ℤ) - 2 ^ (970 : ℤ) ≤ groupsValue a →
      ((calls scripts (n + 2)).function "motorola_utils.ufloatvar_to_float" [numbers a, numbers b] []).run w = .raise .overflow w) := by
  obtain ⟨h0, h1, h2⟩ := floatSum_spec (uintvar_to_int a) _ _ (C33_bound b)
  rw [← groupsValue_eq, ← groupsValue_eq, run_ufloatvar]
  unfold ufloatvar_to_float
  constructor
  · intro h
    obtain ⟨r, hr⟩ := h2 h
    refine ⟨r, (h0 r).1 hr, ?_⟩
    rw [hr]; rfl
  · intro h
    rw [h1 h]; rfl

/-- C61: `sfloatvar_to_float(a, b)` does the same with the number of the groups `a` without its most significant one bit, and with
the sign of the first group; IndexError if there is no group. -/
theorem C61_sfloatvar (n : Nat) (a b : List Nat) (w : World) :
    match a with
    | [] => ((calls scripts (n + 2)).function "motorola_utils.sfloatvar_to_float" [numbers a, numbers b] []).run w = .raise .index w
    | x :: _ =>
      ((withoutTop (groupsValue a) : ℚ) < 2 ^ (1024 : ℤ) - 2 ^ (970 : ℤ) → ∃ r, RoundedSum (withoutTop (groupsValue a)) ((groupsValue b : ℚ) / 128 ^ b.length) r ∧
        ((calls scripts (n + 2)).function "motorola_utils.sfloatvar_to_float" [numbers a, numbers b] []).run w = .ok (.float ⟨signBit x, r⟩) w) ∧
      ((2 : ℚ) ^ (1024 : ℤ) - 2 ^ (970 : ℤ) ≤ withoutTop (groupsValue a) →
        ((calls scripts (n + 2)).function "motorola_utils.sfloatvar_to_float" [numbers a, numbers b] []).run w = .raise .overflow w) := by
  obtain ⟨h0, h1, h2⟩ := floatSum_spec (clear_msb (uintvar_to_int a)) _ _ (C33_bound b)
  rw [run_sfloatvar]
  unfold sfloatvar_to_float
  cases a with
  | nil =>
    obtain ⟨r, hr⟩ := h2 (by rw [show clear_msb (uintvar_to_int []) = 0 by decide, Nat.cast_zero, sub_pos]; exact zpow_lt_zpow_right₀ (by norm_num) (by norm_num))
    dsimp only
    rw [hr]; rfl
  | cons x xs =>
    dsimp only
    rw [← groupsValue_eq, ← groupsValue_eq, ← withoutTop_eq]
    constructor
    · intro h
      obtain ⟨r, hr⟩ := h2 h
      refine ⟨r, (h0 r).1 hr, ?_⟩
      rw [hr, ← signBit_eq]; rfl
    · intro h
      rw [h1 h]; rfl

/-- -300 in two groups, and 5 in one group, which comes out as 1. -/
example (w : World) : ((calls scripts 2).function "motorola_utils.sintvar_to_int" [numbers [0xC2, 0x2C]] []).run w = .ok (.pv (.int (-300))) w := by
  rw [C61_sintvar 0]; congr 3
example (w : World) : ((calls scripts 2).function "motorola_utils.sintvar_to_int" [numbers [0x05]] []).run w = .ok (.pv (.int 1)) w := by
  rw [C61_sintvar 0]; congr 3
/-- 300 in two groups, and in three. -/
example (w : World) : ((calls scripts 1).function "motorola_utils.uintvar_to_int" [numbers [0x82, 0x2C]] []).run w = .ok (.pv (.int 300)) w :=
  C61_uintvar 0 _ w
example (w : World) : ((calls scripts 1).function "motorola_utils.uintvar_to_int" [numbers [0x80, 0x82, 0x2C]] []).run w = .ok (.pv (.int 300)) w :=
  C61_uintvar 0 _ w
/-- 12.5: below the limit. -/
example (w : World) : ∃ r, RoundedSum (12 : ℕ) (((64 : ℕ) : ℚ) / 128 ^ 1) r ∧
    ((calls scripts 2).function "motorola_utils.ufloatvar_to_float" [numbers [0x0C], numbers [0x40]] []).run w = .ok (.float ⟨false, r⟩) w :=
  (C61_ufloatvar 0 [0x0C] [0x40] w).1 (by
    have : (2 : ℚ) ^ (970 : ℤ) + 2 ^ (970 : ℤ) ≤ 2 ^ (1024 : ℤ) := by
      rw [← two_mul, mul_comm, ← zpow_add_one₀ (by norm_num)]; exact zpow_le_zpow_right₀ (by norm_num) (by norm_num)
    have h : (2 : ℚ) ^ (4 : ℤ) ≤ 2 ^ (970 : ℤ) := zpow_le_zpow_right₀ (by norm_num) (by norm_num)
    have h' : ((groupsValue [0x0C] : ℕ) : ℚ) < 2 ^ (4 : ℤ) := by norm_num [groupsValue]
    exact lt_of_lt_of_le (lt_of_lt_of_le h' h) (le_sub_iff_add_le.2 this))
/-- The same from the model: the number itself. -/
example (w : World) : ((calls scripts 2).function "motorola_utils.sfloatvar_to_float" [numbers [0x4C], numbers [0x40]] []).run w = .ok (.float ⟨true, 25 / 2⟩) w := by
  rw [run_sfloatvar 0, show sfloatvar_to_float [0x4C] [0x40] = .ok ⟨true, 25 / 2⟩ by decide +kernel]

/-! ### Exchanging bytes -/

/-- C61: `byteswap_bytes(data)` returns the bytes with neighbours exchanged, without the last; `data` is not changed, and nothing
else is that existed before. -/
theorem C61_byteswap_bytes (n : Nat) (w : World) (data : Bytes) :
    ∃ out temporaries, ((calls scripts (n + 2)).function "byteswap.byteswap_bytes" [.pv (.bytes data)] []).run w =
        .ok (.pv (.bytes out)) { w with buffers := w.buffers ++ temporaries } ∧
      out.length = data.length - 1 ∧ ∀ i, i < out.length → i ^^^ 1 < data.length ∧ out[i]? = data[i ^^^ 1]? := by
  obtain ⟨out, ho, hl, hg⟩ := C44_bytes data
  obtain ⟨t, h⟩ := run_byteswap_bytes n w data
  rw [ho] at h
  exact ⟨out, t, h, hl, hg⟩

/-- C61: `byteswap_bytearray(data)` returns the same, and `data` itself has its neighbours exchanged, after a zero byte has been
appended if its length was odd. -/
theorem C61_byteswap_bytearray (n : Nat) (w : World) (i : Nat) (data : Bytes) (h : w.buffers[i]? = some data) :
    ∃ out data' temporaries, ((calls scripts (n + 1)).function "byteswap.byteswap_bytearray" [.buffer i] []).run w =
        .ok (.pv (.bytes out)) { w with buffers := w.buffers.set i data' ++ temporaries } ∧
      out.length = data.length - 1 ∧ (∀ j, j < out.length → out[j]? = data[j ^^^ 1]?) ∧
      data'.length = data.length + data.length % 2 ∧ ∀ j, j < data'.length → data'[j]? = (data ++ [0x00])[j ^^^ 1]? := by
  obtain ⟨out, ho, hl, hg⟩ := C44_bytes data
  obtain ⟨h1, h2, h3⟩ := C44_bytearray data
  obtain ⟨t, h⟩ := run_byteswap_bytearray n w i data h
  rcases hb : byteswapBytearray data with ⟨r, data'⟩
  rw [hb] at h h1 h2 h3
  dsimp only at h1 h2 h3
  rw [ho] at h1
  subst h1
  exact ⟨out, data', t, h, hl, fun j hj => (hg j hj).2, h2, h3⟩

/-- Five bytes: the argument of `byteswap_bytearray` has six afterwards. -/
example : (World.mk ⟨[], []⟩ [[1, 2, 3, 4, 5]] [] [] []).buffers[0]? = some [1, 2, 3, 4, 5] := rfl
example : byteswapBytearray [1, 2, 3, 4, 5] = (.ok [2, 1, 4, 3], [2, 1, 4, 3, 0, 5]) := by decide

end Dmr.Script
