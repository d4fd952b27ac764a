import Verif.Props.MotorolaNumbers
import Mathlib.Tactic.FieldSimp
import Mathlib.Tactic.NormNum
import Mathlib.Tactic.Positivity
import Mathlib.Algebra.Order.Field.Power
/-
C36: conversion of variable length floats.
-/

namespace Dmr.Motorola

open MotorolaUtils

/-- A rational that is exactly representable as a binary64 number: at most 53 significant bits, within range. -/
def Representable (q : ℚ) : Prop := ∃ (s : ℕ) (e : ℤ), s < 2 ^ 53 ∧ -1074 ≤ e ∧ q = s * 2 ^ e ∧ q < 2 ^ (1024 : ℤ)

/-- The fraction part: the groups after the radix point. -/
def fractionOf (p : List Nat) : ℚ := (uintvar_to_int p : ℚ) / 128 ^ p.length

/-- C36: the fraction lies in [0,1). -/
theorem C36_fraction (p : List Nat) : 0 ≤ fractionOf p ∧ fractionOf p < 1 := by
  unfold fractionOf
  have h : ((uintvar_to_int p : ℕ) : ℚ) < 128 ^ p.length := by exact_mod_cast C33_bound p
  refine ⟨by positivity, ?_⟩
  rw [div_lt_one (by positivity)]; exact h

theorem roundEven_int (n : ℤ) : roundEven (n : ℚ) = n := by
  unfold roundEven
  simp

theorem toBinary64_exact {q : ℚ} (h : Representable q) : toBinary64 q = .ok q := by
  obtain ⟨s, e, hs, he, hq, hlt⟩ := h
  unfold toBinary64
  by_cases h0 : q = 0
  · rw [if_pos h0, h0]
  rw [if_neg h0]
  have hs0 : s ≠ 0 := by rintro rfl; apply h0; rw [hq]; simp
  have hs1 : 0 < s := by omega
  have hpos : 0 < q := by rw [hq]; positivity
  have hlog : Int.log 2 q < 53 + e := by
    rw [← Int.lt_zpow_iff_log_lt (by norm_num) hpos, hq, zpow_add₀ (by norm_num)]
    have : (s : ℚ) < 2 ^ (53 : ℤ) := by exact_mod_cast hs
    have h2 : (0 : ℚ) < 2 ^ e := by positivity
    push_cast
    exact mul_lt_mul_of_pos_right this h2
  have hg : max (Int.log 2 q - 52) (-1074) ≤ e := max_le (by omega) he
  generalize max (Int.log 2 q - 52) (-1074) = g at hg
  have hdiv : q / 2 ^ g = ((s * 2 ^ (e - g).toNat : ℕ) : ℤ) := by
    have : (2 : ℚ) ^ e = 2 ^ g * 2 ^ (e - g).toNat := by
      rw [← zpow_natCast, ← zpow_add₀ (by norm_num)]; congr 1; omega
    rw [hq, this]
    have h2 : (2 : ℚ) ^ g ≠ 0 := by positivity
    push_cast
    field_simp
  simp only [hdiv, roundEven_int]
  rw [← hdiv, div_mul_cancel₀ _ (by positivity), if_pos hlt]

theorem Representable.parts {w f k : ℕ} (hf : f < 128 ^ k) (h : Representable ((w : ℚ) + f / 128 ^ k)) :
    Representable (w : ℚ) ∧ Representable ((f : ℚ) / 128 ^ k) := by
  have hf0 : (0 : ℚ) ≤ f / 128 ^ k := by positivity
  have hf1 : (f : ℚ) / 128 ^ k < 1 := by
    rw [div_lt_one (by positivity)]; exact_mod_cast hf
  have hw0 : (0 : ℚ) ≤ w := by positivity
  obtain ⟨s, e, hs, he, hq, hlt⟩ := h
  have hw : (w : ℚ) < 2 ^ (1024 : ℤ) := lt_of_le_of_lt (le_add_of_nonneg_right hf0) hlt
  have hf2 : (f : ℚ) / 128 ^ k < 2 ^ (1024 : ℤ) := lt_of_le_of_lt (le_add_of_nonneg_left hw0) hlt
  clear hlt
  rcases le_or_gt 0 e with h0 | h0
  · -- the exact value is an integer
    have hint : ((s * 2 ^ e.toNat : ℕ) : ℚ) = (w : ℚ) + f / 128 ^ k := by
      rw [hq]; push_cast
      rw [← zpow_natCast]; congr 2; omega
    have hw' : s * 2 ^ e.toNat = w := by
      have h1 : w ≤ s * 2 ^ e.toNat := by
        have : (w : ℚ) ≤ ((s * 2 ^ e.toNat : ℕ) : ℚ) := by rw [hint]; linarith
        exact_mod_cast this
      have h2 : s * 2 ^ e.toNat < w + 1 := by
        have : ((s * 2 ^ e.toNat : ℕ) : ℚ) < ((w + 1 : ℕ) : ℚ) := by rw [hint]; push_cast; linarith
        exact_mod_cast this
      omega
    have hfz : (f : ℚ) / 128 ^ k = 0 := by rw [hw'] at hint; linarith
    refine ⟨⟨s, e, hs, he, ?_, hw⟩, ⟨0, 0, by norm_num, by norm_num, by rw [hfz]; simp, hf2⟩⟩
    rw [← hq, hfz, add_zero]
  · obtain ⟨n, rfl⟩ : ∃ n : ℕ, e = -(n : ℤ) := ⟨(-e).toNat, by omega⟩
    have hp : (2 : ℚ) ^ (-(n : ℤ)) = 1 / 2 ^ n := by rw [zpow_neg, zpow_natCast, one_div]
    rw [hp] at hq
    have h2 : (0 : ℚ) < 2 ^ n := by positivity
    have hq' : ((w : ℚ) + f / 128 ^ k) * 2 ^ n = s := by rw [hq]; field_simp
    have hle : w * 2 ^ n ≤ s := by
      have : ((w * 2 ^ n : ℕ) : ℚ) ≤ s := by
        rw [← hq']; push_cast
        have : 0 ≤ (f : ℚ) / 128 ^ k * 2 ^ n := mul_nonneg hf0 h2.le
        linarith
      exact_mod_cast this
    have hn1 : 1 ≤ 2 ^ n := Nat.one_le_two_pow
    have hws : w ≤ s := le_trans (Nat.le_mul_of_pos_right w (by omega)) hle
    refine ⟨⟨w, 0, by omega, by norm_num, by simp, hw⟩, ⟨s - w * 2 ^ n, -(n : ℤ), by omega, he, ?_, hf2⟩⟩
    rw [hp, Nat.cast_sub hle, ← hq']
    push_cast
    field_simp
    ring

theorem floatSum_exact {w f k : ℕ} (hf : f < 128 ^ k) (h : Representable ((w : ℚ) + f / 128 ^ k)) :
    floatSum w f k = .ok ((w : ℚ) + f / 128 ^ k) := by
  obtain ⟨h1, h2⟩ := h.parts hf
  unfold floatSum
  rw [toBinary64_exact h2, toBinary64_exact h1]
  exact toBinary64_exact h

/-- C36: an unsigned float is converted exactly whenever integer part plus fraction/128^k has at most 53 significant
bits (and is in the range of a float). -/
theorem C36_unsigned_exact (int_part fraction_part : List Nat)
    (h : Representable (uintvar_to_int int_part + fractionOf fraction_part)) :
    ufloatvar_to_float int_part fraction_part = .ok ⟨false, uintvar_to_int int_part + fractionOf fraction_part⟩ := by
  unfold ufloatvar_to_float
  rw [floatSum_exact (C33_bound fraction_part) h]; rfl

/-- C36: a negative signed float (sign bit set, magnitude `m` of the integer part in the remaining bits) is converted
exactly under the same condition. -/
theorem C36_signed_exact (int_part fraction_part : List Nat) (m : Nat) (hm : EncodesSigned int_part true m)
    (h : Representable (m + fractionOf fraction_part)) :
    sfloatvar_to_float int_part fraction_part = .ok ⟨true, m + fractionOf fraction_part⟩ := by
  have hv : clear_msb (uintvar_to_int int_part) = m := by rw [hm.2.2]; exact clear_msb_eq _ m hm.2.1
  unfold sfloatvar_to_float
  rw [hv, floatSum_exact (C33_bound fraction_part) h]
  rcases int_part with _ | ⟨x, xs⟩
  · exact absurd rfl hm.1
  have hs := (first_sign x xs true m hm).mpr rfl
  show (match (x :: xs)[0]? with
    | none => Except.error PyErr.index
    | some first => Except.ok (⟨decide ((first &&& 0x40) > 0), _⟩ : PyFloat)) = _
  rw [List.getElem?_cons_zero]
  simp only [hs, decide_true]; rfl

/-- C36: the sign of a converted signed float is the sign bit (40) of the first byte, also for a zero. -/
theorem C36_sign (int_part fraction_part : List Nat) (y : PyFloat)
    (h : sfloatvar_to_float int_part fraction_part = .ok y) :
    ∃ x xs, int_part = x :: xs ∧ (y.negative = true ↔ x &&& 0x40 > 0) := by
  unfold sfloatvar_to_float at h
  rcases hm : floatSum (clear_msb (uintvar_to_int int_part)) (uintvar_to_int fraction_part) fraction_part.length with e | m
  · rw [hm] at h; cases h
  rw [hm] at h
  rcases int_part with _ | ⟨x, xs⟩
  · cases h
  · cases h
    exact ⟨x, xs, rfl, by simp⟩

/-- C36: for a positive signed float the top data bit of the integer part is lost, as in `sintvar_to_int`. -/
theorem C36_signed_positive_wrong (int_part fraction_part : List Nat) (m : Nat) (hm0 : 0 < m)
    (hm : EncodesSigned int_part false m)
    (h : Representable ((m - 2 ^ Nat.log 2 m : ℕ) + fractionOf fraction_part)) :
    sfloatvar_to_float int_part fraction_part = .ok ⟨false, (m - 2 ^ Nat.log 2 m : ℕ) + fractionOf fraction_part⟩ ∧
    sfloatvar_to_float int_part fraction_part ≠ .ok ⟨false, m + fractionOf fraction_part⟩ := by
  have hl1 : 2 ^ Nat.log 2 m ≤ m := Nat.pow_log_le_self 2 (by omega)
  have hl2 : m < 2 ^ (Nat.log 2 m + 1) := Nat.lt_pow_succ_log_self (by omega) m
  have hp : 0 < 2 ^ Nat.log 2 m := Nat.pow_pos (by omega)
  have hv : clear_msb (uintvar_to_int int_part) = m - 2 ^ Nat.log 2 m := by
    have : uintvar_to_int int_part = 2 ^ Nat.log 2 m + (m - 2 ^ Nat.log 2 m) := by
      rw [hm.2.2]; simp only [Bool.false_eq_true, if_false]; omega
    rw [this]
    rw [Nat.pow_succ] at hl2
    exact clear_msb_eq _ _ (by omega)
  have he : sfloatvar_to_float int_part fraction_part =
      .ok ⟨false, (m - 2 ^ Nat.log 2 m : ℕ) + fractionOf fraction_part⟩ := by
    unfold sfloatvar_to_float
    rw [hv, floatSum_exact (C33_bound fraction_part) h]
    rcases int_part with _ | ⟨x, xs⟩
    · exact absurd rfl hm.1
    have hs : ¬ (x &&& 0x40 > 0) := fun hc => by have := (first_sign x xs false m hm).mp hc; cases this
    show (match (x :: xs)[0]? with
      | none => Except.error PyErr.index
      | some first => Except.ok (⟨decide ((first &&& 0x40) > 0), _⟩ : PyFloat)) = _
    rw [List.getElem?_cons_zero]
    simp only [hs, decide_false]; rfl
  refine ⟨he, ?_⟩
  rw [he]
  intro hc
  injection hc with hc
  injection hc with _ hc
  have : ((m - 2 ^ Nat.log 2 m : ℕ) : ℚ) = m := by linarith
  have : m - 2 ^ Nat.log 2 m = m := by exact_mod_cast this
  omega

/-! How far the result can be from the exact value when it is not representable. -/

theorem roundEven_near (q : ℚ) : |(roundEven q : ℚ) - q| ≤ 1 / 2 := by
  unfold roundEven
  have h1 := Int.floor_le q
  have h2 := Int.lt_floor_add_one q
  simp only []
  rw [abs_le]
  split_ifs <;> push_cast <;> constructor <;> linarith

theorem rounded_near {q : ℚ} (hpos : 0 < q) :
    |roundEven (q / 2 ^ max (Int.log 2 q - 52) (-1074)) * 2 ^ max (Int.log 2 q - 52) (-1074) - q| ≤
      q / 2 ^ 53 + 1 / 2 ^ 1075 := by
  have hg : (2 : ℚ) ^ max (Int.log 2 q - 52) (-1074) ≤ q / 2 ^ 52 + 1 / 2 ^ 1074 := by
    have ha : (2 : ℚ) ^ Int.log 2 q ≤ q := Int.zpow_log_le_self (by norm_num) hpos
    rcases max_choice (Int.log 2 q - 52) (-1074) with hm | hm <;> rw [hm]
    · rw [zpow_sub₀ (by norm_num)]
      have : (2 : ℚ) ^ Int.log 2 q / 2 ^ (52 : ℤ) ≤ q / 2 ^ 52 := by
        rw [show ((2 : ℚ) ^ (52 : ℤ)) = 2 ^ 52 from by norm_cast]
        exact div_le_div_of_nonneg_right ha (by positivity)
      have h3 : (0 : ℚ) ≤ 1 / 2 ^ 1074 := by positivity
      exact le_trans this (le_add_of_nonneg_right h3)
    · rw [show ((2 : ℚ) ^ (-1074 : ℤ)) = 1 / 2 ^ 1074 from by rw [zpow_neg, one_div]; norm_cast]
      have h3 : (0 : ℚ) ≤ q / 2 ^ 52 := by positivity
      exact le_add_of_nonneg_left h3
  generalize max (Int.log 2 q - 52) (-1074) = g at hg
  have h2 : (0 : ℚ) < 2 ^ g := by positivity
  have hn := roundEven_near (q / 2 ^ g)
  have : (roundEven (q / 2 ^ g) : ℚ) * 2 ^ g - q = ((roundEven (q / 2 ^ g) : ℚ) - q / 2 ^ g) * 2 ^ g := by
    field_simp
  rw [this, abs_mul, abs_of_pos h2]
  have h5 : |(roundEven (q / 2 ^ g) : ℚ) - q / 2 ^ g| * 2 ^ g ≤ 1 / 2 * (q / 2 ^ 52 + 1 / 2 ^ 1074) :=
    mul_le_mul hn hg h2.le (by norm_num)
  have h6 : 1 / 2 * (q / 2 ^ 52 + 1 / 2 ^ 1074) = q / 2 ^ 53 + 1 / 2 ^ 1075 := by
    rw [pow_succ (2 : ℚ) 52, pow_succ (2 : ℚ) 1074]
    field_simp
  exact le_of_le_of_eq h5 h6

theorem toBinary64_near {q r : ℚ} (hq : 0 ≤ q) (h : toBinary64 q = .ok r) :
    |r - q| ≤ q / 2 ^ 53 + 1 / 2 ^ 1075 := by
  unfold toBinary64 at h
  by_cases h0 : q = 0
  · rw [if_pos h0] at h; cases h; rw [h0]; simp
  rw [if_neg h0] at h
  have hpos : 0 < q := lt_of_le_of_ne hq (Ne.symm h0)
  simp only [] at h
  split at h
  · cases h; exact rounded_near hpos
  · cases h

/-- Small enough numbers never overflow. -/
theorem toBinary64_ok {q : ℚ} (hq : 0 ≤ q) (h : q ≤ 2 ^ (1023 : ℤ) + 3) : ∃ r, toBinary64 q = .ok r := by
  unfold toBinary64
  by_cases h0 : q = 0
  · exact ⟨0, by rw [if_pos h0]⟩
  rw [if_neg h0]
  have hpos : 0 < q := lt_of_le_of_ne hq (Ne.symm h0)
  have hn := rounded_near hpos
  simp only []
  refine ⟨_, if_pos ?_⟩
  rw [abs_le] at hn
  have hB : (2 : ℚ) ^ (1024 : ℤ) = 2 * 2 ^ (1023 : ℤ) := by
    rw [show (1024 : ℤ) = 1 + 1023 from by norm_num, zpow_add₀ (by norm_num), zpow_one]
  have hB2 : (64 : ℚ) ≤ 2 ^ (1023 : ℤ) := by
    have : (64 : ℚ) = 2 ^ (6 : ℤ) := by norm_num
    rw [this]; exact zpow_le_zpow_right₀ (by norm_num) (by norm_num)
  have ht : (1 : ℚ) / 2 ^ 1075 ≤ 1 := by
    rw [div_le_one (by positivity)]; exact one_le_pow₀ (by norm_num)
  rw [hB]
  generalize (2 : ℚ) ^ (1023 : ℤ) = B at *
  generalize (1 : ℚ) / 2 ^ 1075 = t at *
  have h53 : q / 2 ^ 53 ≤ q / 4 := by
    apply div_le_div_of_nonneg_left hq (by norm_num) (by norm_num)
  have hn2 := hn.2
  clear hn hB
  generalize q / 2 ^ 53 = z at *
  generalize (roundEven (q / 2 ^ max (Int.log 2 q - 52) (-1074)) : ℚ) * 2 ^ max (Int.log 2 q - 52) (-1074) = x at *
  linarith

/-- Numbers from 2^1024 on overflow. -/
theorem toBinary64_overflow {q : ℚ} (h : 2 ^ (1024 : ℤ) ≤ q) : toBinary64 q = .error .overflow := by
  have hpos : 0 < q := lt_of_lt_of_le (by positivity) h
  unfold toBinary64
  rw [if_neg hpos.ne']
  have hl : (1024 : ℤ) ≤ Int.log 2 q := by
    rw [← Int.zpow_le_iff_le_log (by norm_num) hpos]; exact_mod_cast h
  have hm : max (Int.log 2 q - 52) (-1074) = Int.log 2 q - 52 := max_eq_left (by omega)
  simp only [hm]
  rw [if_neg]
  rw [not_lt]
  have ha : (2 : ℚ) ^ Int.log 2 q ≤ q := Int.zpow_log_le_self (by norm_num) hpos
  have hp : (0 : ℚ) < 2 ^ (Int.log 2 q - 52) := by positivity
  have h52 : (2 : ℚ) ^ Int.log 2 q = 2 ^ 52 * 2 ^ (Int.log 2 q - 52) := by
    rw [← zpow_natCast, ← zpow_add₀ (by norm_num)]; congr 1; push_cast; omega
  have hd : (2 : ℚ) ^ 52 ≤ q / 2 ^ (Int.log 2 q - 52) := by
    rw [le_div_iff₀ hp, ← h52]; exact ha
  have hf : (2 ^ 52 : ℤ) ≤ ⌊q / 2 ^ (Int.log 2 q - 52)⌋ := Int.le_floor.mpr (by exact_mod_cast hd)
  have hr : (2 ^ 52 : ℤ) ≤ roundEven (q / 2 ^ (Int.log 2 q - 52)) := by
    unfold roundEven; simp only []; split_ifs <;> omega
  have hr' : (2 : ℚ) ^ 52 ≤ roundEven (q / 2 ^ (Int.log 2 q - 52)) := by exact_mod_cast hr
  have h1 : (2 : ℚ) ^ (1024 : ℤ) ≤ 2 ^ Int.log 2 q := zpow_le_zpow_right₀ (by norm_num) hl
  exact le_trans h1 (h52 ▸ mul_le_mul_of_nonneg_right hr' hp.le)

theorem toBinary64_nonneg {q r : ℚ} (hq : 0 ≤ q) (h : toBinary64 q = .ok r) : 0 ≤ r := by
  unfold toBinary64 at h
  by_cases h0 : q = 0
  · rw [if_pos h0] at h; cases h; rfl
  rw [if_neg h0] at h
  simp only [] at h
  split at h
  · cases h
    apply mul_nonneg _ (by positivity)
    have : 0 ≤ ⌊q / 2 ^ max (Int.log 2 q - 52) (-1074)⌋ := Int.floor_nonneg.mpr (by positivity)
    have : 0 ≤ roundEven (q / 2 ^ max (Int.log 2 q - 52) (-1074)) := by
      unfold roundEven; simp only []; split_ifs <;> omega
    exact_mod_cast this
  · cases h

theorem floatSum_near {w f k : ℕ} (r : ℚ) (h : floatSum w f k = .ok r) :
    |r - ((w : ℚ) + f / 128 ^ k)| ≤ ((w : ℚ) + f / 128 ^ k) / 2 ^ 51 + 1 / 2 ^ 1073 := by
  unfold floatSum at h
  rcases hf : toBinary64 ((f : ℚ) / 128 ^ k) with _ | f'
  · rw [hf] at h; cases h
  rcases hw : toBinary64 (w : ℚ) with _ | w'
  · rw [hf, hw] at h; cases h
  rw [hf, hw] at h
  have h : toBinary64 (w' + f') = .ok r := h
  have hF : (0 : ℚ) ≤ f / 128 ^ k := by positivity
  have hW : (0 : ℚ) ≤ w := by positivity
  generalize (f : ℚ) / 128 ^ k = F at *
  generalize (w : ℚ) = W at *
  have nf := toBinary64_near hF hf
  have nw := toBinary64_near hW hw
  have tiny : (0 : ℚ) < 1 / 2 ^ 1075 := by positivity
  have t1 : (1 : ℚ) / 2 ^ 1073 = 4 * (1 / 2 ^ 1075) := by
    rw [pow_succ (2 : ℚ) 1074, pow_succ (2 : ℚ) 1073]
    generalize hP : (2 : ℚ) ^ 1073 = P
    have : P ≠ 0 := by rw [← hP]; exact pow_ne_zero _ (by norm_num)
    field_simp; norm_num
  have pf := toBinary64_nonneg hF hf
  have pw := toBinary64_nonneg hW hw
  have ns := toBinary64_near (by linarith) h
  generalize (1 : ℚ) / 2 ^ 1075 = t at *
  rw [t1]
  rw [abs_le] at nf nw ns ⊢
  norm_num at nf nw ns ⊢
  constructor <;> linarith [nf.1, nf.2, nw.1, nw.2, ns.1, ns.2]

/-- C36: in every case the converted value is within a relative error of 2^-51 of the exact one (plus 2^-1073 in the
subnormal range). -/
theorem C36_error (int_part fraction_part : List Nat) (y : PyFloat)
    (h : ufloatvar_to_float int_part fraction_part = .ok y) :
    y.negative = false ∧
    |y.toRat - (uintvar_to_int int_part + fractionOf fraction_part)| ≤
      (uintvar_to_int int_part + fractionOf fraction_part) / 2 ^ 51 + 1 / 2 ^ 1073 := by
  unfold ufloatvar_to_float at h
  rcases hm : floatSum (uintvar_to_int int_part) (uintvar_to_int fraction_part) fraction_part.length with e | m
  · rw [hm] at h; cases h
  rw [hm] at h
  cases h
  exact ⟨rfl, floatSum_near m hm⟩

theorem zpow_split {e g : ℤ} (h : g ≤ e) : (2 : ℚ) ^ e = ((2 ^ (e - g).toNat : ℕ) : ℤ) * 2 ^ g := by
  push_cast
  rw [← zpow_natCast, ← zpow_add₀ (by norm_num)]; congr 1; omega

/-- C36: the conversion raises OverflowError for integer parts from 2^1024 on, and never for those below 2^1023. -/
theorem C36_overflow (int_part fraction_part : List Nat) :
    ((2 : ℚ) ^ (1024 : ℤ) ≤ uintvar_to_int int_part → ufloatvar_to_float int_part fraction_part = .error .overflow) ∧
    ((uintvar_to_int int_part : ℚ) < 2 ^ (1023 : ℤ) → ∃ y, ufloatvar_to_float int_part fraction_part = .ok y) := by
  obtain ⟨hf0, hf1⟩ := C36_fraction fraction_part
  have hB2 : (64 : ℚ) ≤ 2 ^ (1023 : ℤ) := by
    have : (64 : ℚ) = 2 ^ (6 : ℤ) := by norm_num
    rw [this]; exact zpow_le_zpow_right₀ (by norm_num) (by norm_num)
  have hfb : fractionOf fraction_part ≤ 2 ^ (1023 : ℤ) + 3 := by
    generalize (2 : ℚ) ^ (1023 : ℤ) = B at *
    linarith
  obtain ⟨f, hf⟩ := toBinary64_ok hf0 hfb
  have hf' : toBinary64 ((uintvar_to_int fraction_part : ℚ) / 128 ^ fraction_part.length) = .ok f := hf
  unfold ufloatvar_to_float floatSum
  rw [hf']
  constructor
  · intro h
    rw [toBinary64_overflow h]; rfl
  · intro h
    have hw0 : (0 : ℚ) ≤ uintvar_to_int int_part := Nat.cast_nonneg _
    have hwb : (uintvar_to_int int_part : ℚ) ≤ 2 ^ (1023 : ℤ) + 3 := by
      generalize (2 : ℚ) ^ (1023 : ℤ) = B at *
      linarith
    obtain ⟨w, hw⟩ := toBinary64_ok hw0 hwb
    -- an integer below 2^1023 is rounded to at most 2^1023
    have hwle : w ≤ 2 ^ (1023 : ℤ) := by
      unfold toBinary64 at hw
      by_cases h0 : (uintvar_to_int int_part : ℚ) = 0
      · rw [if_pos h0] at hw; cases hw; positivity
      rw [if_neg h0] at hw
      simp only [] at hw
      split at hw
      · cases hw
        have hpos : (0 : ℚ) < uintvar_to_int int_part := lt_of_le_of_ne hw0 (Ne.symm h0)
        generalize (uintvar_to_int int_part : ℚ) = q at *
        have hlog : Int.log 2 q < 1023 := by
          rw [← Int.lt_zpow_iff_log_lt (by norm_num) hpos]; exact_mod_cast h
        have hg : max (Int.log 2 q - 52) (-1074) ≤ 1023 := max_le (by omega) (by norm_num)
        generalize max (Int.log 2 q - 52) (-1074) = g at *
        have hp : (0 : ℚ) < 2 ^ g := zpow_pos (by norm_num) _
        have hpow : (2 : ℚ) ^ (1023 : ℤ) = ((2 ^ (1023 - g).toNat : ℕ) : ℤ) * 2 ^ g := zpow_split hg
        rw [hpow] at h ⊢
        apply mul_le_mul_of_nonneg_right _ hp.le
        have hq : q / 2 ^ g < ((2 ^ (1023 - g).toNat : ℕ) : ℤ) := by
          rw [div_lt_iff₀ hp]; exact h
        generalize (2 ^ (1023 - g).toNat : ℕ) = N at *
        have hfl : ⌊q / 2 ^ g⌋ < (N : ℤ) := Int.floor_lt.mpr hq
        have : roundEven (q / 2 ^ g) ≤ (N : ℤ) := by unfold roundEven; simp only []; split_ifs <;> omega
        exact_mod_cast this
      · cases hw
    have hfle : f ≤ 2 := by
      have := toBinary64_near hf0 hf
      rw [abs_le] at this
      have ht : (1 : ℚ) / 2 ^ 1075 ≤ 1 / 2 := by
        apply div_le_div_of_nonneg_left (by norm_num) (by norm_num)
        calc (2 : ℚ) = 2 ^ 1 := by norm_num
          _ ≤ 2 ^ 1075 := pow_le_pow_right₀ (by norm_num) (by norm_num)
      generalize (1 : ℚ) / 2 ^ 1075 = t at *
      have h53 : fractionOf fraction_part / 2 ^ 53 ≤ fractionOf fraction_part / 4 := by
        apply div_le_div_of_nonneg_left hf0 (by norm_num) (by norm_num)
      linarith [this.2]
    have hnn : 0 ≤ w + f := by
      have h1 := toBinary64_nonneg hf0 hf
      have h2 := toBinary64_nonneg hw0 hw
      exact add_nonneg h2 h1
    obtain ⟨r, hr⟩ := toBinary64_ok hnn (by generalize (2 : ℚ) ^ (1023 : ℤ) = B at *; linarith)
    refine ⟨⟨false, r⟩, ?_⟩
    rw [hw]
    show (do let m ← toBinary64 (w + f); return (⟨false, m⟩ : PyFloat)) = _
    rw [hr]; rfl

/-- 2.5 in one group each. -/
example : Representable (uintvar_to_int [0x02] + fractionOf [0x40]) := by
  have e : (uintvar_to_int [0x02] + fractionOf [0x40] : ℚ) = 5 / 2 := by
    unfold fractionOf
    rw [show uintvar_to_int [0x02] = 2 from by decide, show uintvar_to_int [0x40] = 64 from by decide]; norm_num
  rw [e]
  refine ⟨5, -1, by norm_num, by norm_num, by norm_num, ?_⟩
  exact lt_of_lt_of_le (b := (2 : ℚ) ^ (2 : ℤ)) (by norm_num) (zpow_le_zpow_right₀ (by norm_num) (by norm_num))

theorem half : fractionOf [0x40] = 1 / 2 := by
  unfold fractionOf
  rw [show uintvar_to_int [0x40] = 64 from by decide]; norm_num

theorem representable_half (n : ℕ) (h : n < 1000) : Representable (n / 2) := by
  refine ⟨n, -1, by omega, by norm_num, by norm_num [div_eq_mul_inv], ?_⟩
  have hn : (n : ℚ) < 1000 := by exact_mod_cast h
  exact lt_of_lt_of_le (b := (2 : ℚ) ^ (10 : ℤ)) (by norm_num; linarith) (zpow_le_zpow_right₀ (by norm_num) (by norm_num))

/-- 2.5, -300.5 and the wrong 300.5. -/
example : ufloatvar_to_float [0x02] [0x40] = .ok ⟨false, 5 / 2⟩ := by
  have e : ((uintvar_to_int [0x02] : ℕ) : ℚ) + fractionOf [0x40] = 5 / 2 := by
    rw [half, show uintvar_to_int [0x02] = 2 from by decide]; norm_num
  have h := C36_unsigned_exact [0x02] [0x40] (by rw [e]; exact_mod_cast representable_half 5 (by norm_num))
  rwa [e] at h
example : sfloatvar_to_float [0xC2, 0x2C] [0x40] = .ok ⟨true, 601 / 2⟩ := by
  have e : ((300 : ℕ) : ℚ) + fractionOf [0x40] = 601 / 2 := by rw [half]; norm_num
  have h := C36_signed_exact [0xC2, 0x2C] [0x40] 300 ⟨by simp, by decide, by decide⟩ (by rw [e]; exact_mod_cast representable_half 601 (by norm_num))
  rwa [e] at h
example : sfloatvar_to_float [0x82, 0x2C] [0x40] = .ok ⟨false, 89 / 2⟩ := by
  have e : ((300 - 2 ^ Nat.log 2 300 : ℕ) : ℚ) + fractionOf [0x40] = 89 / 2 := by
    rw [half, show Nat.log 2 300 = 8 from by decide]; norm_num
  have h := (C36_signed_positive_wrong [0x82, 0x2C] [0x40] 300 (by decide) ⟨by simp, by decide, by decide⟩
    (by rw [e]; exact_mod_cast representable_half 89 (by norm_num))).1
  rwa [e] at h
/-- The bound on the error, for 2.5. -/
example : ∃ y, ufloatvar_to_float [0x02] [0x40] = .ok y ∧ y.negative = false := by
  obtain ⟨y, hy⟩ := (C36_overflow [0x02] [0x40]).2 (by
    rw [show uintvar_to_int [0x02] = 2 from by decide]
    exact lt_of_lt_of_le (b := (2 : ℚ) ^ (2 : ℤ)) (by norm_num) (zpow_le_zpow_right₀ (by norm_num) (by norm_num)))
  exact ⟨y, hy, (C36_error _ _ y hy).1⟩
/-- The sign of -300.5 and of the wrong 300.5. -/
example : ∃ y, sfloatvar_to_float [0xC2, 0x2C] [0x40] = .ok y ∧ y.negative = true :=
  have e : (300 : ℚ) + fractionOf [0x40] = 601 / 2 := by rw [half]; norm_num
  have h := C36_signed_exact [0xC2, 0x2C] [0x40] 300 ⟨by simp, by decide, by decide⟩ (by rw [Nat.cast_ofNat, e]; exact_mod_cast representable_half 601 (by norm_num))
  ⟨_, h, by obtain ⟨x, xs, h1, h2⟩ := C36_sign _ _ _ h; cases h1; exact h2.2 (by decide)⟩

end Dmr.Motorola
