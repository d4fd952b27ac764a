import Verif.Props.MotorolaFloats
/-
C36: variable length floats are correctly rounded (IEEE 754: to nearest, ties to even), and the exact limit of OverflowError.
-/

set_option autoImplicit false

namespace Dmr.Motorola

open MotorolaUtils

/-- A number with at most 53 significant bits, on the grid of binary64 numbers (subnormals included), without upper limit. -/
def Float53 (q : ℚ) : Prop := ∃ (s : ℕ) (e : ℤ), s < 2 ^ 53 ∧ -1074 ≤ e ∧ q = s * 2 ^ e

/-- `r` is `q` rounded to 53 significant bits: no such number is nearer to `q`, and if another one is just as near, then `r` is
the even one of the two: an even multiple of their difference. -/
def Rounded (q r : ℚ) : Prop :=
  Float53 r ∧ (∀ r', Float53 r' → |q - r| ≤ |q - r'|) ∧
  ∀ r', Float53 r' → r' ≠ r → |q - r'| = |q - r| → ∃ n : ℤ, r = 2 * n * |r - r'|

/-- `r` is the sum of two numbers as a program computes it in binary64: both are rounded, and their sum is rounded. -/
def RoundedSum (w f r : ℚ) : Prop :=
  ∃ w' f', Rounded w w' ∧ Rounded f f' ∧ w' < 2 ^ (1024 : ℤ) ∧ Rounded (w' + f') r ∧ r < 2 ^ (1024 : ℤ)

theorem Float53.zero : Float53 0 := ⟨0, 0, by norm_num, by norm_num, by simp⟩

/-- There is at most one rounded number. -/
theorem Rounded.unique {q r r' : ℚ} (h : Rounded q r) (h' : Rounded q r') : r = r' := by
  by_contra hne
  have he : |q - r| = |q - r'| := le_antisymm (h.2.1 r' h'.1) (h'.2.1 r h.1)
  obtain ⟨n, hn⟩ := h.2.2 r' h'.1 (Ne.symm hne) he.symm
  obtain ⟨n', hn'⟩ := h'.2.2 r h.1 hne he
  rw [abs_sub_comm] at hn'
  have hd : 0 < |r - r'| := abs_pos.mpr (sub_ne_zero.mpr hne)
  have e : r - r' = 2 * (n - n') * |r - r'| := by
    nth_rewrite 1 [hn]; nth_rewrite 2 [hn']; ring
  have key : ∀ d : ℚ, 0 < d → ∀ k : ℤ, (d = 2 * k * d ∨ -d = 2 * k * d) → False := by
    intro d hd k hk
    have : (1 : ℚ) = 2 * k ∨ (-1 : ℚ) = 2 * k := by
      rcases hk with hk | hk
      · left; exact mul_right_cancel₀ hd.ne' (by linarith)
      · right; exact mul_right_cancel₀ hd.ne' (by linarith)
    rcases this with h | h
    · have : (1 : ℤ) = 2 * k := by exact_mod_cast h
      omega
    · have : (-1 : ℤ) = 2 * k := by exact_mod_cast h
      omega
  refine key _ hd (n - n') ?_
  push_cast
  rcases abs_choice (r - r') with h1 | h1
  · left; rw [← e]; exact h1
  · right; rw [← e]; linarith

theorem roundEven_nearest (x : ℚ) (n : ℤ) : |x - roundEven x| ≤ |x - n| := by
  by_cases hn : n = roundEven x
  · rw [hn]
  have h1 := roundEven_near x
  rw [abs_sub_comm] at h1
  have h2 : (1 : ℚ) ≤ |(n : ℚ) - roundEven x| := by
    have : 1 ≤ |n - roundEven x| := Int.one_le_abs (sub_ne_zero.mpr hn)
    exact_mod_cast this
  have h3 : |(n : ℚ) - roundEven x| ≤ |x - roundEven x| + |x - n| := by
    have := abs_sub_le (n : ℚ) x (roundEven x)
    rw [abs_sub_comm (n : ℚ) x] at this
    linarith
  linarith

theorem roundEven_tie (x : ℚ) (n : ℤ) (hn : n ≠ roundEven x) (h : |x - n| = |x - roundEven x|) :
    |(roundEven x : ℚ) - n| = 1 ∧ roundEven x % 2 = 0 := by
  have h1 := roundEven_near x
  rw [abs_sub_comm] at h1
  have h2 : (1 : ℚ) ≤ |(roundEven x : ℚ) - n| := by
    have : 1 ≤ |roundEven x - n| := Int.one_le_abs (sub_ne_zero.mpr (Ne.symm hn))
    exact_mod_cast this
  have h3 : |(roundEven x : ℚ) - n| ≤ |x - roundEven x| + |x - n| := by
    have := abs_sub_le (roundEven x : ℚ) x n
    rw [abs_sub_comm (roundEven x : ℚ) x] at this
    exact this
  have h4 : |x - roundEven x| = 1 / 2 := by linarith
  refine ⟨by linarith, ?_⟩
  have f1 := Int.floor_le x
  have f2 := Int.lt_floor_add_one x
  unfold roundEven at h4 ⊢
  simp only [] at h4 ⊢
  split_ifs at h4 ⊢ with c1 c2 c3
  · rw [abs_of_nonneg (by linarith)] at h4; linarith
  · push_cast at h4
    rw [abs_of_nonpos (by linarith)] at h4; linarith
  · exact c3
  · omega

theorem Rounded.zero : Rounded 0 0 := by
  refine ⟨.zero, fun r' _ => by simp, fun r' _ hne he => absurd ?_ hne⟩
  simpa using he

/-- The model's rounding is correct rounding. -/
theorem rounded_spec {q : ℚ} (hpos : 0 < q) :
    Rounded q (roundEven (q / 2 ^ max (Int.log 2 q - 52) (-1074)) * 2 ^ max (Int.log 2 q - 52) (-1074)) := by
  have hL1 : (2 : ℚ) ^ Int.log 2 q ≤ q := Int.zpow_log_le_self (by norm_num) hpos
  have hL2 : q < 2 ^ (Int.log 2 q + 1) := Int.lt_zpow_succ_log_self (by norm_num) q
  have hgL : Int.log 2 q - 52 ≤ max (Int.log 2 q - 52) (-1074) := le_max_left _ _
  have hg0 : -1074 ≤ max (Int.log 2 q - 52) (-1074) := le_max_right _ _
  have hgc : max (Int.log 2 q - 52) (-1074) = Int.log 2 q - 52 ∨ max (Int.log 2 q - 52) (-1074) = -1074 := max_choice _ _
  generalize max (Int.log 2 q - 52) (-1074) = g at *
  generalize Int.log 2 q = L at *
  have hu : (0 : ℚ) < 2 ^ g := by positivity
  have hx : ∀ z : ℚ, |q - z * 2 ^ g| = |q / 2 ^ g - z| * 2 ^ g := by
    intro z
    rw [← abs_of_pos hu, ← abs_mul, abs_of_pos hu]
    congr 1
    field_simp
  have hlt : q / 2 ^ g < 2 ^ 53 := by
    rw [div_lt_iff₀ hu]
    refine lt_of_lt_of_le hL2 ?_
    rw [← zpow_natCast, ← zpow_add₀ (by norm_num)]
    exact zpow_le_zpow_right₀ (by norm_num) (by push_cast; omega)
  have hge : 0 ≤ q / 2 ^ g := by positivity
  have hcase : ∀ r', Float53 r' → (∃ n : ℤ, r' = n * 2 ^ g) ∨ ∃ n : ℤ, r' < n * 2 ^ g ∧ n * 2 ^ g ≤ q := by
    rintro r' ⟨s, e, hs, he, rfl⟩
    rcases le_or_gt g e with h | h
    · refine .inl ⟨s * 2 ^ (e - g).toNat, ?_⟩
      rw [zpow_split h]; push_cast; ring
    · have hgL' : g = L - 52 := by omega
      refine .inr ⟨2 ^ 52, ?_, ?_⟩
      · have h1 : (s : ℚ) < 2 ^ 53 := by exact_mod_cast hs
        have h2 : (2 : ℚ) ^ e ≤ 2 ^ (g - 1) := zpow_le_zpow_right₀ (by norm_num) (by omega)
        have h3 : (2 : ℚ) ^ g = 2 * 2 ^ (g - 1) := by
          rw [← zpow_one_add₀ (by norm_num)]; congr 1; omega
        have h4 : (0 : ℚ) < 2 ^ (g - 1) := by positivity
        rw [h3]
        push_cast
        calc (s : ℚ) * 2 ^ e ≤ s * 2 ^ (g - 1) := mul_le_mul_of_nonneg_left h2 (by positivity)
          _ < 2 ^ 53 * 2 ^ (g - 1) := mul_lt_mul_of_pos_right h1 h4
          _ = 2 ^ 52 * (2 * 2 ^ (g - 1)) := by ring
      · refine le_trans (le_of_eq ?_) hL1
        rw [Int.cast_pow, Int.cast_ofNat, ← zpow_natCast, ← zpow_add₀ (by norm_num), hgL']; congr 1; push_cast; omega
  have hnear : ∀ n : ℤ, |q - roundEven (q / 2 ^ g) * 2 ^ g| ≤ |q - n * 2 ^ g| := by
    intro n
    rw [hx, hx]
    exact mul_le_mul_of_nonneg_right (roundEven_nearest _ n) hu.le
  have hfar : ∀ (n : ℤ) (r' : ℚ), r' < n * 2 ^ g → n * 2 ^ g ≤ q → |q - roundEven (q / 2 ^ g) * 2 ^ g| < |q - r'| := by
    intro n r' h1 h2
    refine lt_of_le_of_lt (hnear n) ?_
    rw [abs_of_nonneg (by linarith), abs_of_nonneg (by linarith)]
    linarith
  refine ⟨?_, ?_, ?_⟩
  · have f1 : 0 ≤ ⌊q / 2 ^ g⌋ := Int.floor_nonneg.mpr hge
    have f2 : ⌊q / 2 ^ g⌋ < 2 ^ 53 := Int.floor_lt.mpr (by exact_mod_cast hlt)
    have m1 : 0 ≤ roundEven (q / 2 ^ g) := by unfold roundEven; simp only []; split_ifs <;> omega
    have m2 : roundEven (q / 2 ^ g) ≤ 2 ^ 53 := by unfold roundEven; simp only []; split_ifs <;> omega
    generalize roundEven (q / 2 ^ g) = m at *
    rcases lt_or_eq_of_le m2 with h | h
    · refine ⟨m.toNat, g, by omega, hg0, ?_⟩
      congr 1
      exact_mod_cast (Int.toNat_of_nonneg m1).symm
    · refine ⟨2 ^ 52, g + 1, by norm_num, by omega, ?_⟩
      rw [h, zpow_add_one₀ (by norm_num)]; push_cast; ring
  · intro r' h'
    rcases hcase r' h' with ⟨n, rfl⟩ | ⟨n, h1, h2⟩
    · exact hnear n
    · exact (hfar n r' h1 h2).le
  · intro r' h' hne he
    rcases hcase r' h' with ⟨n, rfl⟩ | ⟨n, h1, h2⟩
    · rw [hx, hx] at he
      have hne' : n ≠ roundEven (q / 2 ^ g) := by rintro rfl; exact hne rfl
      obtain ⟨t1, t2⟩ := roundEven_tie _ n hne' (mul_right_cancel₀ hu.ne' he)
      refine ⟨roundEven (q / 2 ^ g) / 2, ?_⟩
      rw [← sub_mul, abs_mul, t1, abs_of_pos hu, one_mul]
      congr 1
      have : roundEven (q / 2 ^ g) = 2 * (roundEven (q / 2 ^ g) / 2) := by omega
      exact_mod_cast this
    · exact absurd he (hfar n r' h1 h2).ne'

theorem toBinary64_iff {q : ℚ} (hq : 0 ≤ q) (r : ℚ) :
    toBinary64 q = .ok r ↔ Rounded q r ∧ r < 2 ^ (1024 : ℤ) := by
  have key : ∃ r0, Rounded q r0 ∧ toBinary64 q = if r0 < 2 ^ (1024 : ℤ) then .ok r0 else .error .overflow := by
    unfold toBinary64
    by_cases h0 : q = 0
    · refine ⟨0, h0 ▸ .zero, ?_⟩
      rw [if_pos h0, if_pos (by positivity)]
    · refine ⟨_, rounded_spec (lt_of_le_of_ne hq (Ne.symm h0)), ?_⟩
      rw [if_neg h0]
  obtain ⟨r0, h1, h2⟩ := key
  rw [h2]
  constructor
  · intro h
    split at h
    · cases h; exact ⟨h1, by assumption⟩
    · cases h
  · rintro ⟨h3, h4⟩
    cases h1.unique h3
    rw [if_pos h4]

theorem toBinary64_total (q : ℚ) : (∃ r, toBinary64 q = .ok r) ∨ toBinary64 q = .error .overflow := by
  unfold toBinary64
  simp only []
  split_ifs <;> simp

/-- The largest float below 2^1024. -/
theorem Float53.le_max {r : ℚ} (h : Float53 r) (hlt : r < 2 ^ (1024 : ℤ)) : r ≤ (2 ^ 53 - 1) * 2 ^ (971 : ℤ) := by
  obtain ⟨s, e, hs, he, rfl⟩ := h
  rcases le_or_gt e 971 with h | h
  · have h1 : (s : ℚ) ≤ 2 ^ 53 - 1 := by
      have : (s : ℚ) ≤ ((2 ^ 53 - 1 : ℕ) : ℚ) := by exact_mod_cast (by omega : s ≤ 2 ^ 53 - 1)
      refine le_trans this (by norm_num)
    exact mul_le_mul h1 (zpow_le_zpow_right₀ (by norm_num) h) (by positivity) (by norm_num)
  · have h2 : (2 : ℚ) ^ (1024 : ℤ) = 2 ^ 53 * 2 ^ (971 : ℤ) := by
      rw [← zpow_natCast, ← zpow_add₀ (by norm_num)]; rfl
    rw [h2, zpow_split h.le] at hlt
    rw [zpow_split h.le]
    have hp : (0 : ℚ) < 2 ^ (971 : ℤ) := by positivity
    generalize (2 : ℚ) ^ (971 : ℤ) = B at *
    rw [← mul_assoc] at hlt ⊢
    have h3 := lt_of_mul_lt_mul_right hlt hp.le
    refine mul_le_mul_of_nonneg_right ?_ hp.le
    have h4 : s * 2 ^ (e - 971).toNat < 2 ^ 53 := by exact_mod_cast h3
    have : ((s * 2 ^ (e - 971).toNat : ℕ) : ℚ) ≤ ((2 ^ 53 - 1 : ℕ) : ℚ) := by
      exact_mod_cast (by omega : s * 2 ^ (e - 971).toNat ≤ 2 ^ 53 - 1)
    refine le_trans (le_of_eq (by push_cast; rfl)) (le_trans this (by norm_num))

theorem rounded_overflow {q r : ℚ} (h : Rounded q r) : 2 ^ (1024 : ℤ) ≤ r ↔ (2 : ℚ) ^ (1024 : ℤ) - 2 ^ (970 : ℤ) ≤ q := by
  have hmax : r < 2 ^ (1024 : ℤ) → r ≤ (2 ^ 53 - 1) * 2 ^ (971 : ℤ) := h.1.le_max
  have e1 : (2 : ℚ) ^ (1024 : ℤ) = 2 ^ 54 * 2 ^ (970 : ℤ) := by
    rw [← zpow_natCast, ← zpow_add₀ (by norm_num)]; rfl
  have e2 : (2 : ℚ) ^ (971 : ℤ) = 2 * 2 ^ (970 : ℤ) := by
    rw [← zpow_one_add₀ (by norm_num)]; rfl
  have hp : (0 : ℚ) < 2 ^ (970 : ℤ) := by positivity
  have hM : Float53 ((2 ^ 53 - 1) * 2 ^ (971 : ℤ)) := ⟨2 ^ 53 - 1, 971, by norm_num, by norm_num, by norm_num⟩
  have hT : Float53 (2 ^ (1024 : ℤ)) := ⟨1, 1024, by norm_num, by norm_num, by simp⟩
  rw [e1] at hmax hT ⊢
  rw [e2] at hmax hM
  clear e1 e2
  generalize (2 : ℚ) ^ (970 : ℤ) = B at *
  constructor
  · intro hr
    by_contra hq
    rw [not_le] at hq
    have h1 := h.2.1 _ hM
    rw [abs_of_nonpos (by linarith)] at h1
    rcases le_or_gt q ((2 ^ 53 - 1) * (2 * B)) with h2 | h2
    · rw [abs_of_nonpos (by linarith)] at h1; linarith
    · rw [abs_of_nonneg (by linarith)] at h1; linarith
  · intro hq
    by_contra hr
    rw [not_le] at hr
    have hr' := hmax hr
    have h1 := h.2.1 _ hT
    rw [abs_of_nonneg (by linarith)] at h1
    rcases le_or_gt q (2 ^ 54 * B) with h2 | h2
    · rw [abs_of_nonpos (by linarith)] at h1
      have hrM : r = (2 ^ 53 - 1) * (2 * B) := by linarith
      have hqM : q = 2 ^ 54 * B - B := by linarith
      obtain ⟨n, hn⟩ := h.2.2 _ hT (ne_of_gt hr) (by
        rw [abs_of_nonpos (by linarith), abs_of_nonneg (by linarith)]; linarith)
      rw [abs_of_nonpos (by linarith), hrM] at hn
      have h5 : ((2 : ℚ) ^ 53 - 1) * (2 * B) = (2 * n) * (2 * B) := by rw [hn]; ring
      have h6 := mul_right_cancel₀ (by positivity) h5
      have h7 : (2 ^ 53 - 1 : ℤ) = 2 * n := by exact_mod_cast h6
      omega
    · rw [abs_of_nonneg (by linarith)] at h1; linarith

theorem toBinary64_overflow_iff {q : ℚ} (hq : 0 ≤ q) :
    toBinary64 q = .error .overflow ↔ (2 : ℚ) ^ (1024 : ℤ) - 2 ^ (970 : ℤ) ≤ q := by
  by_cases h0 : q = 0
  · subst h0
    have : ¬ ((2 : ℚ) ^ (1024 : ℤ) - 2 ^ (970 : ℤ) ≤ 0) := by
      rw [not_le, sub_pos]; exact zpow_lt_zpow_right₀ (by norm_num) (by norm_num)
    simp only [toBinary64, if_true, this, reduceCtorEq]
  · have h := rounded_spec (lt_of_le_of_ne hq (Ne.symm h0))
    rw [← rounded_overflow h]
    unfold toBinary64
    rw [if_neg h0]
    simp only []
    split
    · rename_i hlt
      simp only [reduceCtorEq, false_iff, not_le]; exact hlt
    · rename_i hlt
      simp only [true_iff]; exact not_lt.mp hlt

theorem Rounded.nonneg {q r : ℚ} (h : Rounded q r) : 0 ≤ r := by
  obtain ⟨s, e, _, _, rfl⟩ := h.1
  positivity

theorem Rounded.le_one {q r : ℚ} (h : Rounded q r) (hq : q ≤ 1) : r ≤ 1 := by
  by_contra hr
  rw [not_le] at hr
  have h1 := h.2.1 1 ⟨1, 0, by norm_num, by norm_num, by simp⟩
  rw [abs_of_nonpos (by linarith), abs_of_nonpos (by linarith)] at h1
  linarith

theorem floatSum_spec (w f k : ℕ) (hf : f < 128 ^ k) :
    (∀ r, floatSum w f k = .ok r ↔ RoundedSum w ((f : ℚ) / 128 ^ k) r) ∧
    ((2 : ℚ) ^ (1024 : ℤ) - 2 ^ (970 : ℤ) ≤ w → floatSum w f k = .error .overflow) ∧
    ((w : ℚ) < 2 ^ (1024 : ℤ) - 2 ^ (970 : ℤ) → ∃ r, floatSum w f k = .ok r) := by
  have hF : (0 : ℚ) ≤ f / 128 ^ k := by positivity
  have hF1 : (f : ℚ) / 128 ^ k ≤ 1 := by
    rw [div_le_one (by positivity)]; exact_mod_cast hf.le
  have hW : (0 : ℚ) ≤ w := by positivity
  have e1 : (2 : ℚ) ^ (1024 : ℤ) = 2 ^ 54 * 2 ^ (970 : ℤ) := by
    rw [← zpow_natCast, ← zpow_add₀ (by norm_num)]; rfl
  have e2 : (2 : ℚ) ^ (971 : ℤ) = 2 * 2 ^ (970 : ℤ) := by
    rw [← zpow_one_add₀ (by norm_num)]; rfl
  have hp : (2 : ℚ) ≤ 2 ^ (970 : ℤ) := by
    have : (2 : ℚ) = 2 ^ (1 : ℤ) := by norm_num
    nth_rewrite 1 [this]
    exact zpow_le_zpow_right₀ (by norm_num) (by norm_num)
  unfold floatSum
  generalize (f : ℚ) / 128 ^ k = F at *
  generalize (w : ℚ) = W at *
  obtain ⟨f', hf'⟩ : ∃ r, toBinary64 F = .ok r := by
    rcases toBinary64_total F with h | h
    · exact h
    · have := (toBinary64_overflow_iff hF).1 h
      rw [e1] at this
      clear e1 e2
      generalize (2 : ℚ) ^ (970 : ℤ) = B at *
      linarith
  have hf2 := (toBinary64_iff hF f').1 hf'
  have hsum : ∀ w', Rounded W w' → 0 ≤ w' + f' := fun w' h => add_nonneg h.nonneg hf2.1.nonneg
  have hfin : ∀ w', toBinary64 W = .ok w' → ∃ r, toBinary64 (w' + f') = .ok r := by
    intro w' hw
    have hw2 := (toBinary64_iff hW w').1 hw
    rcases toBinary64_total (w' + f') with h | h
    · exact h
    · have h3 := (toBinary64_overflow_iff (hsum _ hw2.1)).1 h
      have h4 := hw2.1.1.le_max hw2.2
      have h5 := hf2.1.le_one hF1
      rw [e1] at h3
      rw [e2] at h4
      clear e1 e2
      generalize (2 : ℚ) ^ (970 : ℤ) = B at *
      linarith
  rw [hf']
  refine ⟨fun r => ?_, fun h => ?_, fun h => ?_⟩
  · constructor
    · intro h
      rcases hw : toBinary64 W with _ | w'
      · rw [hw] at h; cases h
      · rw [hw] at h
        have h : toBinary64 (w' + f') = .ok r := h
        have hw2 := (toBinary64_iff hW w').1 hw
        have h3 := (toBinary64_iff (hsum _ hw2.1) r).1 h
        exact ⟨w', f', hw2.1, hf2.1, hw2.2, h3.1, h3.2⟩
    · rintro ⟨w', f'', h1, h2, h3, h4, h5⟩
      cases hf2.1.unique h2
      rw [(toBinary64_iff hW w').2 ⟨h1, h3⟩]
      exact (toBinary64_iff (hsum _ h1) r).2 ⟨h4, h5⟩
  · rw [(toBinary64_overflow_iff hW).2 h]; rfl
  · rcases hw : toBinary64 W with e | w'
    · rcases toBinary64_total W with ⟨r, h1⟩ | h1
      · rw [hw] at h1; cases h1
      · exact absurd ((toBinary64_overflow_iff hW).1 h1) (not_le.mpr h)
    · exact hfin w' hw

/-- C36: an unsigned float is converted to the correctly rounded sum of its integer part and its fraction part (each of them
correctly rounded), ties to even. -/
theorem C36_rounding (int_part fraction_part : List Nat) (y : PyFloat) :
    ufloatvar_to_float int_part fraction_part = .ok y ↔
      y.negative = false ∧ RoundedSum (uintvar_to_int int_part) (fractionOf fraction_part) y.magnitude := by
  have h := (floatSum_spec (uintvar_to_int int_part) _ _ (C33_bound fraction_part)).1
  unfold ufloatvar_to_float fractionOf
  rw [← h]
  obtain ⟨n, m⟩ := y
  constructor
  · intro h
    rcases hs : floatSum (uintvar_to_int int_part) (uintvar_to_int fraction_part) fraction_part.length with _ | r
    · rw [hs] at h; cases h
    · rw [hs] at h; cases h; exact ⟨rfl, rfl⟩
  · rintro ⟨rfl, h⟩
    rw [h]; rfl

/-- C36: a negative signed float is converted to minus the correctly rounded sum. -/
theorem C36_signed_rounding (int_part fraction_part : List Nat) (m : Nat) (hm : EncodesSigned int_part true m) (y : PyFloat) :
    sfloatvar_to_float int_part fraction_part = .ok y ↔
      y.negative = true ∧ RoundedSum m (fractionOf fraction_part) y.magnitude := by
  have hv : clear_msb (uintvar_to_int int_part) = m := by rw [hm.2.2]; exact clear_msb_eq _ m hm.2.1
  have h := (floatSum_spec m _ _ (C33_bound fraction_part)).1
  rcases int_part with _ | ⟨x, xs⟩
  · exact absurd rfl hm.1
  have hs := (first_sign x xs true m hm).mpr rfl
  unfold sfloatvar_to_float fractionOf
  rw [← h, hv]
  obtain ⟨n, r⟩ := y
  constructor
  · intro h
    rcases hs' : floatSum m (uintvar_to_int fraction_part) fraction_part.length with _ | r
    · rw [hs'] at h; cases h
    · rw [hs'] at h
      have h : (Except.ok (⟨decide ((x &&& 0x40) > 0), r⟩ : PyFloat)) = (.ok _ : Except PyErr PyFloat) := h
      simp only [hs, decide_true] at h
      cases h; exact ⟨rfl, rfl⟩
  · rintro ⟨hn, h⟩
    rw [h]
    show (Except.ok (⟨decide ((x &&& 0x40) > 0), r⟩ : PyFloat)) = (.ok _ : Except PyErr PyFloat)
    simp only [hs, decide_true]
    rw [← hn]

/-- C36: the conversion of an unsigned float succeeds exactly if the integer part is below 2^1024 - 2^970 (half a unit above the
largest float) and raises OverflowError from there on. -/
theorem C36_limit (int_part fraction_part : List Nat) :
    ((∃ y, ufloatvar_to_float int_part fraction_part = .ok y) ↔ (uintvar_to_int int_part : ℚ) < 2 ^ (1024 : ℤ) - 2 ^ (970 : ℤ)) ∧
    (ufloatvar_to_float int_part fraction_part = .error .overflow ↔
      (2 : ℚ) ^ (1024 : ℤ) - 2 ^ (970 : ℤ) ≤ uintvar_to_int int_part) := by
  obtain ⟨-, h1, h2⟩ := floatSum_spec (uintvar_to_int int_part) _ _ (C33_bound fraction_part)
  unfold ufloatvar_to_float
  rcases lt_or_ge (uintvar_to_int int_part : ℚ) (2 ^ (1024 : ℤ) - 2 ^ (970 : ℤ)) with h | h
  · obtain ⟨r, hr⟩ := h2 h
    rw [hr]
    refine ⟨⟨fun _ => h, fun _ => ⟨_, rfl⟩⟩, ⟨nofun, fun h' => absurd h (not_lt.mpr h')⟩⟩
  · rw [h1 h]
    refine ⟨⟨nofun, fun h' => absurd h (not_le.mpr h')⟩, ⟨fun _ => h, fun _ => rfl⟩⟩

/-- C36: the same for negative signed floats. -/
theorem C36_signed_limit (int_part fraction_part : List Nat) (m : Nat) (hm : EncodesSigned int_part true m) :
    ((∃ y, sfloatvar_to_float int_part fraction_part = .ok y) ↔ (m : ℚ) < 2 ^ (1024 : ℤ) - 2 ^ (970 : ℤ)) ∧
    (sfloatvar_to_float int_part fraction_part = .error .overflow ↔ (2 : ℚ) ^ (1024 : ℤ) - 2 ^ (970 : ℤ) ≤ m) := by
  have hv : clear_msb (uintvar_to_int int_part) = m := by rw [hm.2.2]; exact clear_msb_eq _ m hm.2.1
  obtain ⟨-, h1, h2⟩ := floatSum_spec m _ _ (C33_bound fraction_part)
  rcases int_part with _ | ⟨x, xs⟩
  · exact absurd rfl hm.1
  unfold sfloatvar_to_float
  rw [hv]
  rcases lt_or_ge (m : ℚ) (2 ^ (1024 : ℤ) - 2 ^ (970 : ℤ)) with h | h
  · obtain ⟨r, hr⟩ := h2 h
    rw [hr]
    refine ⟨⟨fun _ => h, fun _ => ⟨_, rfl⟩⟩, ⟨nofun, fun h' => absurd h (not_lt.mpr h')⟩⟩
  · rw [h1 h]
    refine ⟨⟨nofun, fun h' => absurd h (not_le.mpr h')⟩, ⟨fun _ => h, fun _ => rfl⟩⟩

/-- C36: a signed float with a positive integer part `m` is converted to the correctly rounded sum for `m` without its top bit. -/
theorem C36_positive_rounding (int_part fraction_part : List Nat) (m : Nat) (hm0 : 0 < m) (hm : EncodesSigned int_part false m) (y : PyFloat) :
    sfloatvar_to_float int_part fraction_part = .ok y ↔
      y.negative = false ∧ RoundedSum ((m - 2 ^ Nat.log 2 m : ℕ) : ℚ) (fractionOf fraction_part) y.magnitude := by
  have hl1 : 2 ^ Nat.log 2 m ≤ m := Nat.pow_log_le_self 2 (by omega)
  have hl2 : m < 2 ^ (Nat.log 2 m + 1) := Nat.lt_pow_succ_log_self (by omega) m
  have hv : clear_msb (uintvar_to_int int_part) = m - 2 ^ Nat.log 2 m := by
    have : uintvar_to_int int_part = 2 ^ Nat.log 2 m + (m - 2 ^ Nat.log 2 m) := by
      rw [hm.2.2]; simp only [Bool.false_eq_true, if_false]; omega
    rw [this]
    rw [Nat.pow_succ] at hl2
    exact clear_msb_eq _ _ (by omega)
  have h := (floatSum_spec (m - 2 ^ Nat.log 2 m) _ _ (C33_bound fraction_part)).1
  rcases int_part with _ | ⟨x, xs⟩
  · exact absurd rfl hm.1
  have hs : ¬ (x &&& 0x40 > 0) := fun hc => by have := (first_sign x xs false m hm).mp hc; cases this
  unfold sfloatvar_to_float fractionOf
  rw [← h, hv]
  obtain ⟨n, r⟩ := y
  constructor
  · intro h
    rcases hs' : floatSum (m - 2 ^ Nat.log 2 m) (uintvar_to_int fraction_part) fraction_part.length with _ | r
    · rw [hs'] at h; cases h
    · rw [hs'] at h
      have h : (Except.ok (⟨decide ((x &&& 0x40) > 0), r⟩ : PyFloat)) = (.ok _ : Except PyErr PyFloat) := h
      simp only [hs, decide_false] at h
      cases h; exact ⟨rfl, rfl⟩
  · rintro ⟨hn, h⟩
    rw [h]
    show (Except.ok (⟨decide ((x &&& 0x40) > 0), r⟩ : PyFloat)) = (.ok _ : Except PyErr PyFloat)
    simp only [hs, decide_false]
    cases hn; rfl

/-- C36: the error for negative signed floats. -/
theorem C36_signed_error (int_part fraction_part : List Nat) (m : Nat) (hm : EncodesSigned int_part true m) (y : PyFloat)
    (h : sfloatvar_to_float int_part fraction_part = .ok y) :
    y.negative = true ∧ |y.toRat - -(m + fractionOf fraction_part)| ≤ (m + fractionOf fraction_part) / 2 ^ 51 + 1 / 2 ^ 1073 := by
  obtain ⟨h1, h2⟩ := (C36_signed_rounding int_part fraction_part m hm y).1 h
  have h3 := (floatSum_spec m _ _ (C33_bound fraction_part)).1 _ |>.2 h2
  have h4 := floatSum_near _ h3
  refine ⟨h1, ?_⟩
  obtain ⟨n, r⟩ := y
  cases h1
  have e : PyFloat.toRat ⟨true, r⟩ - -(m + fractionOf fraction_part) = -(r - (m + fractionOf fraction_part)) := by
    unfold PyFloat.toRat
    rw [if_pos rfl]
    ring
  rw [e, abs_neg]
  exact h4

/-- 5.5 in the signed encoding is taken for 1.5; -37.5. -/
example : RoundedSum ((1 : ℕ) : ℚ) (fractionOf [0x40]) (1 + 64 / 128) :=
  ((C36_positive_rounding [0x05] [0x40] 5 (by decide) ⟨by simp, by decide, by decide⟩ ⟨false, 1 + 64 / 128⟩).1 (by decide +kernel)).2
example := C36_signed_error [0x65] [0x40] 37 ⟨by simp, by decide, by decide⟩ ⟨true, 37 + 64 / 128⟩ (by decide +kernel)

/-- 2^53 + 1 has 54 significant bits; it is in the middle between 2^53 and 2^53 + 2, and 2^53 is the even one. 2^53 + 3 is
rounded up. -/
example : ufloatvar_to_float [0x90, 0x80, 0x80, 0x80, 0x80, 0x80, 0x80, 0x01] [0x00] = .ok ⟨false, 2 ^ 53⟩ := by decide +kernel
example : ufloatvar_to_float [0x90, 0x80, 0x80, 0x80, 0x80, 0x80, 0x80, 0x03] [0x00] = .ok ⟨false, 2 ^ 53 + 4⟩ := by decide +kernel
/-- The same with a sign. -/
example : RoundedSum ((2 ^ 53 + 1 : ℕ) : ℚ) (fractionOf [0x00]) (2 ^ 53) :=
  ((C36_signed_rounding [0xC0, 0x90, 0x80, 0x80, 0x80, 0x80, 0x80, 0x80, 0x01] [0x00] (2 ^ 53 + 1)
    ⟨by simp, by decide, by decide⟩ ⟨true, 2 ^ 53⟩).1 (by decide +kernel)).2
example := (C36_signed_limit [0xC0, 0x90, 0x80, 0x80, 0x80, 0x80, 0x80, 0x80, 0x01] [0x00] (2 ^ 53 + 1)
    ⟨by simp, by decide, by decide⟩).1.1 ⟨⟨true, 2 ^ 53⟩, by decide +kernel⟩

/-- The test vectors of okdmr/tests/kaitai/motorola/test_mbxml.py:32-69, decoded and converted. -/
def ufloatOf (b : Bytes) : Except PyErr PyFloat := do
  let x ← fromBytes MotorolaBinaryXml.Ufloatvar.read b
  ufloatvar_to_float (x.uint_payload.payload) (x.fraction_payload.payload)
def sfloatOf (b : Bytes) : Except PyErr PyFloat := do
  let x ← fromBytes MotorolaBinaryXml.Sfloatvar.read b
  sfloatvar_to_float (x.sint_payload.payload) (x.fraction_payload.payload)
example : ufloatOf [0x25, 0x40] = .ok ⟨false, 37 + 64 / 128⟩ := by decide +kernel
example : ufloatOf [0x81, 0x20, 0x07] = .ok ⟨false, 160 + 7 / 128⟩ := by decide +kernel
example : ufloatOf [0x81, 0x20, 0x87, 0x57] = .ok ⟨false, 160 + 983 / 128 ^ 2⟩ := by decide +kernel
example : sfloatOf [0x65, 0x40] = .ok ⟨true, 37 + 64 / 128⟩ := by decide +kernel
example : sfloatOf [0xC1, 0x20, 0x87, 0x57] = .ok ⟨true, 160 + 983 / 128 ^ 2⟩ := by decide +kernel

end Dmr.Motorola
