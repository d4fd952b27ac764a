import Verif.RunAt
import Verif.Layout.MotorolaVar
import Verif.Model.Motorola.MotorolaUtils
import Verif.TextProofs
import Mathlib.Tactic.Ring
import Mathlib.Tactic.Linarith
import Mathlib.Data.Nat.Log
import Mathlib.Data.Nat.Digits.Defs
/-
C33, C34, C35, C36: variable length numbers of Motorola binary XML.
-/

namespace Dmr.Motorola

open MotorolaUtils

/-! ### C34 -/

/-- The bytes up to and including the first one whose top bit is clear; all of them if there is none. -/
def upToClear : Bytes → Bytes
  | [] => []
  | x :: xs => if x.toNat < 128 then [x] else x :: upToClear xs

theorem upToClear_prefix (b : Bytes) : upToClear b <+: b := by
  induction b with
  | nil => exact List.prefix_rfl
  | cons x xs ih =>
    unfold upToClear
    split
    · exact ⟨xs, rfl⟩
    · exact List.cons_prefix_cons.mpr ⟨rfl, ih⟩

theorem varBytes_eq (b : Bytes) (q : Nat) (hq : q ≤ b.length) :
    varBytes b q = if q = b.length then .error .eof
      else .ok ((upToClear (b.drop q)).map UInt8.toNat, q + (upToClear (b.drop q)).length) := by
  induction hn : b.length - q generalizing q with
  | zero =>
    have hqe : q = b.length := by omega
    unfold varBytes chain whole
    have hl : ¬ (q + 1 ≤ b.length) := by omega
    rw [if_neg hl, if_pos hqe]
  | succ n ih =>
    have hne : ¬ q = b.length := by omega
    have hlt : q < b.length := by omega
    have hl : q + 1 ≤ b.length := by omega
    rw [if_neg hne]
    unfold varBytes at ih ⊢
    unfold chain
    rw [show whole 1 u8 b q = .ok (u8 b q, q + 1) from if_pos hl]
    simp only []
    have hd : b.drop q = b[q] :: b.drop (q + 1) := List.drop_eq_getElem_cons hlt
    have hu : u8 b q = b[q].toNat := by simp [u8, List.getElem?_eq_getElem hlt]
    have hb : b[q].toNat < 256 := UInt8.toNat_lt _
    rw [hd, upToClear, hu]
    by_cases h1 : b[q].toNat < 128
    · have h1' : b[q].toNat / 128 % 2 = 0 := by omega
      simp [h1, h1']
    · have h1' : ¬ (b[q].toNat / 128 % 2 = 0) := by omega
      rw [if_neg h1]
      by_cases h2 : q + 1 = b.length
      · have : b.drop (q + 1) = [] := by rw [List.drop_eq_nil_iff]; omega
        simp [h2, upToClear]
      · have hs : (decide (b[q].toNat / 128 % 2 = 0) || decide (q + 1 = b.length)) = false := by simp [h1', h2]
        have hc : q < q + 1 ∧ q + 1 ≤ b.length := ⟨by omega, hl⟩
        rw [hs]
        simp only [Bool.false_eq_true, if_false, dif_pos hc]
        rw [show (chain (whole 1 u8) (fun x e => decide (x / 128 % 2 = 0) || decide (e = b.length)) b (q + 1)) = _ from
          ih (q + 1) hl (by omega), if_neg h2]
        simp only [List.map_cons, List.length_cons]
        congr 2; omega

/-- C34: a variable length unsigned number at any place of any input is the bytes up to and including the first one
with clear top bit (or all that are left), and exactly these are consumed; at the end of input EOFError is raised. -/
theorem C34_uintvar (b : Bytes) (q : Nat) (hq : q ≤ b.length) :
    parseAt MotorolaBinaryXml.Uintvar.read b q = if q = b.length then .error .eof
      else .ok (⟨(upToClear (b.drop q)).map UInt8.toNat⟩, q + (upToClear (b.drop q)).length) := by
  rw [MotorolaBinaryXml.Uintvar.parses.parseAt b q hq, MotorolaBinaryXml.Uintvar.spec, varBytes_eq b q hq]
  split <;> rfl

example := C34_uintvar [7, 0x82, 0x2C, 9] 1 (by decide)

/-- C34: and so is a signed one. -/
theorem C34_sintvar (b : Bytes) (q : Nat) (hq : q ≤ b.length) :
    parseAt MotorolaBinaryXml.Sintvar.read b q = if q = b.length then .error .eof
      else .ok (⟨(upToClear (b.drop q)).map UInt8.toNat⟩, q + (upToClear (b.drop q)).length) := by
  rw [MotorolaBinaryXml.Sintvar.parses.parseAt b q hq, MotorolaBinaryXml.Sintvar.spec, varBytes_eq b q hq]
  split <;> rfl

example := C34_sintvar [7, 0xC2, 0x2C, 9] 1 (by decide)

/-- C34: what "up to and including the first byte with clear top bit" means, without recursion: the consumed bytes are
a prefix `p` of the data, all but the last of them have the top bit set, and the last one has it clear or is the last
byte of the data. -/
theorem C34_shape (b : Bytes) (hb : b ≠ []) :
    ∃ p x rest, upToClear b = p ++ [x] ∧ b = p ++ x :: rest ∧ (∀ y ∈ p, 128 ≤ y.toNat) ∧ (x.toNat < 128 ∨ rest = []) := by
  induction b with
  | nil => exact absurd rfl hb
  | cons x xs ih =>
    unfold upToClear
    by_cases h : x.toNat < 128
    · exact ⟨[], x, xs, by simp [h], rfl, by simp, .inl h⟩
    · rw [if_neg h]
      by_cases hx : xs = []
      · subst hx
        exact ⟨[], x, [], rfl, rfl, by simp, .inr rfl⟩
      · obtain ⟨p, y, rest, h1, h2, h3, h4⟩ := ih hx
        refine ⟨x :: p, y, rest, by rw [h1]; rfl, by rw [h2]; rfl, ?_, h4⟩
        intro z hz
        rcases List.mem_cons.mp hz with rfl | hz
        · omega
        · exact h3 z hz

example := C34_shape [0x82, 0x2C, 9] (by simp)

/-! ### C33 -/

theorem and127 (x : Nat) : x &&& 0x7F = x % 128 := by
  have := Nat.and_two_pow_sub_one_eq_mod x 7
  simpa using this

theorem foldl7 (p : List Nat) (acc : Nat) :
    p.foldl (fun out single => (out <<< 7) + (single &&& 0x7F)) acc = acc * 128 ^ p.length + uintvar_to_int p := by
  induction p generalizing acc with
  | nil => simp [uintvar_to_int]
  | cons x xs ih =>
    unfold uintvar_to_int
    simp only [List.foldl_cons, List.length_cons]
    rw [ih, ih (0 <<< 7 + (x &&& 0x7F)), Nat.shiftLeft_eq, Nat.shiftLeft_eq, Nat.pow_succ]
    ring

theorem uintvar_cons (x : Nat) (xs : List Nat) :
    uintvar_to_int (x :: xs) = x % 128 * 128 ^ xs.length + uintvar_to_int xs := by
  have := foldl7 xs (0 <<< 7 + (x &&& 0x7F))
  unfold uintvar_to_int at this ⊢
  rw [List.foldl_cons, this, and127]
  simp

theorem uintvar_append (p q : List Nat) :
    uintvar_to_int (p ++ q) = uintvar_to_int p * 128 ^ q.length + uintvar_to_int q := by
  have := foldl7 q (uintvar_to_int p)
  rw [← this]
  unfold uintvar_to_int
  rw [List.foldl_append]

/-- The 7 bit groups of a number, most significant first, as few as possible (at least one). -/
def groups (n : Nat) : List Nat := if n < 128 then [n] else groups (n / 128) ++ [n % 128]
termination_by n
decreasing_by omega

/-- Standard encoding: one byte per group, with the top bit set in all but the last. -/
def encode7 (n : Nat) : Bytes :=
  (groups n).dropLast.map (fun g => UInt8.ofNat (128 + g)) ++ [UInt8.ofNat (n % 128)]

theorem groups_spec (n : Nat) : ∃ p, groups n = p ++ [n % 128] ∧ ∀ g ∈ groups n, g < 128 := by
  induction n using Nat.strongRecOn with
  | _ n ih =>
    rw [groups]
    split
    · exact ⟨[], by simp; omega, by simpa using ‹_›⟩
    · obtain ⟨p, _, h⟩ := ih (n / 128) (by omega)
      refine ⟨groups (n / 128), rfl, fun g hg => ?_⟩
      rcases List.mem_append.mp hg with hg | hg
      · exact h g hg
      · rw [List.mem_singleton.mp hg]; omega

theorem uintvar_groups (n : Nat) : uintvar_to_int (groups n) = n := by
  induction n using Nat.strongRecOn with
  | _ n ih =>
    rw [groups]
    split
    · rw [uintvar_cons]; simp [uintvar_to_int]; omega
    · rw [uintvar_append, ih _ (by omega), uintvar_cons]
      simp [uintvar_to_int]; omega

theorem upToClear_append (p : Bytes) (x : UInt8) (rest : Bytes) (hp : ∀ y ∈ p, 128 ≤ y.toNat) (hx : x.toNat < 128) :
    upToClear (p ++ x :: rest) = p ++ [x] := by
  induction p with
  | nil => simp [upToClear, hx]
  | cons y ys ih =>
    have hy := hp y List.mem_cons_self
    rw [List.cons_append, upToClear, if_neg (by omega), ih fun z hz => hp z (List.mem_cons_of_mem _ hz)]
    rfl

theorem uintvar_map (p : List Nat) : uintvar_to_int (p.map (128 + ·)) = uintvar_to_int p := by
  induction p with
  | nil => rfl
  | cons x xs ih => rw [List.map_cons, uintvar_cons, uintvar_cons, ih, List.length_map, Nat.add_mod_left]

theorem encode7_split (n : Nat) : ∃ p : Bytes, encode7 n = p ++ [UInt8.ofNat (n % 128)] ∧ (∀ y ∈ p, 128 ≤ y.toNat) ∧
    uintvar_to_int ((encode7 n).map UInt8.toNat) = n := by
  obtain ⟨p, hp, hg⟩ := groups_spec n
  have hd : (groups n).dropLast = p := by rw [hp]; simp
  have hg' : ∀ g ∈ p, g < 128 := fun g h => hg g (by rw [hp]; exact List.mem_append_left _ h)
  refine ⟨_, rfl, ?_, ?_⟩
  · intro y hy
    obtain ⟨g, hgm, rfl⟩ := List.mem_map.mp hy
    have := hg' g (hd ▸ hgm)
    rw [toNat_ofNat_u8 _ (by omega)]; omega
  · have e : (encode7 n).map UInt8.toNat = p.map (128 + ·) ++ [n % 128] := by
      unfold encode7
      rw [hd, List.map_append, List.map_map, List.map_cons, List.map_nil, toNat_ofNat_u8 _ (by omega)]
      congr 1
      apply List.map_congr_left
      intro g hgm
      have := hg' g hgm
      exact toNat_ofNat_u8 _ (by omega)
    have := uintvar_groups n
    rw [hp, uintvar_append] at this
    rw [e, uintvar_append, uintvar_map]
    exact this

/-- C33: every natural number, encoded in 7 bit groups with continuation bits at any place of a message, is parsed back
by consuming exactly the encoding, and the conversion of the payload gives the number. -/
theorem C33_roundtrip (n : Nat) (pre rest : Bytes) :
    ∃ payload, parseAt MotorolaBinaryXml.Uintvar.read (pre ++ encode7 n ++ rest) pre.length =
        .ok (⟨payload⟩, pre.length + (encode7 n).length) ∧ uintvar_to_int payload = n := by
  obtain ⟨p, h1, h2, h3⟩ := encode7_split n
  refine ⟨(encode7 n).map UInt8.toNat, ?_, h3⟩
  rw [C34_uintvar _ _ (by simp)]
  have hne : ¬ pre.length = (pre ++ encode7 n ++ rest).length := by rw [h1]; simp
  have hdrop : (pre ++ encode7 n ++ rest).drop pre.length = encode7 n ++ rest := by
    rw [List.append_assoc, List.drop_left]
  have hup : upToClear (encode7 n ++ rest) = encode7 n := by
    rw [h1, List.append_assoc]
    exact upToClear_append p _ rest h2 (by rw [toNat_ofNat_u8 _ (by omega)]; omega)
  rw [if_neg hne, hdrop, hup]

/-- C33: k groups give a value below 128^k. -/
theorem C33_bound (payload : List Nat) : uintvar_to_int payload < 128 ^ payload.length := by
  induction payload with
  | nil => simp [uintvar_to_int]
  | cons x xs ih =>
    rw [uintvar_cons, List.length_cons, Nat.pow_succ]
    have h : x % 128 ≤ 127 := by omega
    calc x % 128 * 128 ^ xs.length + uintvar_to_int xs
        < x % 128 * 128 ^ xs.length + 128 ^ xs.length := by omega
      _ = (x % 128 + 1) * 128 ^ xs.length := by ring
      _ ≤ 128 * 128 ^ xs.length := Nat.mul_le_mul_right _ (by omega)
      _ = 128 ^ xs.length * 128 := by ring

/-- C33: leading zero groups (bytes 80) do not change the value. -/
theorem C33_leading_zero (payload : List Nat) (k : Nat) :
    uintvar_to_int (List.replicate k 0x80 ++ payload) = uintvar_to_int payload := by
  induction k with
  | zero => rfl
  | succ k ih => rw [List.replicate_succ, List.cons_append, uintvar_cons, ih]; simp

/-- C33: payloads of the same size with the same value have the same 7 bit groups: nothing else is lost. -/
theorem C33_injective (p q : List Nat) (hl : p.length = q.length) (h : uintvar_to_int p = uintvar_to_int q) :
    p.map (· % 128) = q.map (· % 128) := by
  induction p generalizing q with
  | nil => rw [List.eq_nil_of_length_eq_zero hl.symm]
  | cons x xs ih =>
    rcases q with _ | ⟨y, ys⟩
    · cases hl
    have hl' : xs.length = ys.length := by simpa using hl
    rw [uintvar_cons, uintvar_cons, ← hl'] at h
    have h1 := C33_bound xs
    have h2 := C33_bound ys
    rw [← hl'] at h2
    have hd : x % 128 = y % 128 := by
      have a1 : (x % 128 * 128 ^ xs.length + uintvar_to_int xs) / 128 ^ xs.length = x % 128 := by
        rw [Nat.mul_comm, Nat.mul_add_div (Nat.pow_pos (by omega)), Nat.div_eq_of_lt h1]; rfl
      have a2 : (y % 128 * 128 ^ xs.length + uintvar_to_int ys) / 128 ^ xs.length = y % 128 := by
        rw [Nat.mul_comm, Nat.mul_add_div (Nat.pow_pos (by omega)), Nat.div_eq_of_lt h2]; rfl
      rw [← a1, ← a2, h]
    rw [hd] at h
    rw [List.map_cons, List.map_cons, hd, ih ys hl' (by omega)]

example := C33_injective [0x82, 0x2C] [0x82, 0xAC] rfl rfl

example : encode7 300 = [0x82, 0x2C] ∧ uintvar_to_int [0x82, 0x2C] = 300 := by
  refine ⟨?_, by decide⟩
  unfold encode7
  rw [groups, if_neg (by omega), groups, if_pos (by omega)]
  decide

/-! ### C35 -/

theorem toDigits_lt_two (n : Nat) (h : n < 2) : Nat.toDigits 2 n = [Nat.digitChar n] := Nat.toDigits_of_lt_base h

theorem toDigits_two (n : Nat) (h : 2 ≤ n) : Nat.toDigits 2 n = Nat.toDigits 2 (n / 2) ++ [Nat.digitChar (n % 2)] :=
  Nat.toDigits_of_base_le (by omega) h

theorem pyInt2_append (s : List Char) (c : Char) : pyInt2 (s ++ [c]) = 2 * pyInt2 s + (if c = '1' then 1 else 0) := by
  unfold pyInt2; rw [List.foldl_append]; rfl

theorem digitChar_bit (n : Nat) : (if Nat.digitChar (n % 2) = '1' then 1 else 0) = n % 2 := by
  rcases Nat.mod_two_eq_zero_or_one n with h | h <;> rw [h] <;> decide

/-- `clear_msb` removes the most significant one bit. -/
theorem clear_msb_eq (k m : Nat) (h : m < 2 ^ k) : clear_msb (2 ^ k + m) = m := by
  unfold clear_msb pyBin
  rw [List.drop_succ_cons, List.drop_succ_cons]
  have key : ∀ k m, m < 2 ^ k → ∃ t, Nat.toDigits 2 (2 ^ k + m) = '1' :: t ∧ pyInt2 ('0' :: t) = m := by
    intro k
    induction k with
    | zero =>
      intro m h
      have : m = 0 := by simpa using h
      subst this
      exact ⟨[], by decide, by decide⟩
    | succ k ih =>
      intro m h
      rw [Nat.pow_succ] at h
      have h1 : m / 2 < 2 ^ k := by omega
      obtain ⟨t, ht, hv⟩ := ih (m / 2) h1
      have h2 : (2 ^ (k + 1) + m) / 2 = 2 ^ k + m / 2 := by rw [Nat.pow_succ]; omega
      have h3 : (2 ^ (k + 1) + m) % 2 = m % 2 := by rw [Nat.pow_succ]; omega
      have h4 : 0 < 2 ^ k := Nat.pow_pos (by omega)
      refine ⟨t ++ [Nat.digitChar (m % 2)], ?_, ?_⟩
      · rw [toDigits_two _ (by rw [Nat.pow_succ]; omega), h2, h3, ht]; rfl
      · rw [← List.cons_append, pyInt2_append, hv, digitChar_bit]; omega
  obtain ⟨t, ht, hv⟩ := key k m h
  rw [ht]
  simpa using hv

theorem clear_msb_zero : clear_msb 0 = 0 := by decide

/-- Sign bit and magnitude in the groups of a signed number: the first group starts with the sign bit, so `k` groups
hold a magnitude below 2^(7k-1). -/
def signedValue (negative : Bool) (magnitude : Nat) : Int := if negative then -(magnitude : Int) else magnitude

/-- `payload` (with or without continuation bits) is an encoding, in any number of groups, of the signed number with the
given sign and magnitude: the first group is the sign bit and the 6 top bits of the magnitude, the others 7 bits each. -/
def EncodesSigned (payload : List Nat) (negative : Bool) (magnitude : Nat) : Prop :=
  payload ≠ [] ∧ magnitude < 2 ^ (7 * payload.length - 1) ∧
  uintvar_to_int payload = (if negative then 2 ^ (7 * payload.length - 1) else 0) + magnitude

theorem first_sign (x : Nat) (xs : List Nat) (neg : Bool) (m : Nat) (h : EncodesSigned (x :: xs) neg m) :
    (x &&& 0x40 > 0) ↔ neg = true := by
  obtain ⟨_, hm, he⟩ := h
  have h64 : (x &&& 0x40 > 0) ↔ x / 64 % 2 = 1 := by
    have h : (x &&& 64).testBit 6 = decide (x / 2 ^ 6 % 2 = 1) := by
      rw [Nat.testBit_and, Nat.testBit_eq_decide_div_mod_eq, show Nat.testBit 64 6 = true from by decide, Bool.and_true]
    constructor
    · intro h0
      by_contra hc
      have : x &&& 64 = 0 := by
        apply Nat.eq_of_testBit_eq
        intro i
        rw [show (64 : Nat) = 2 ^ 6 from rfl, Nat.testBit_and, Nat.testBit_two_pow, Nat.zero_testBit]
        by_cases hi : 6 = i
        · subst hi; rw [Nat.testBit_eq_decide_div_mod_eq]; simp; omega
        · simp [hi]
      omega
    · intro h1
      by_contra hc
      have h0 : x &&& 64 = 0 := by omega
      rw [h0] at h
      simp at h; omega
  rw [h64]
  rw [List.length_cons] at hm he
  have hk : 7 * (xs.length + 1) - 1 = 6 + 7 * xs.length := by omega
  rw [hk] at hm he
  rw [uintvar_cons] at he
  have hb := C33_bound xs
  have hp : 2 ^ (6 + 7 * xs.length) = 64 * 128 ^ xs.length := by
    rw [Nat.pow_add, Nat.pow_mul]
  rw [hp] at hm he
  have hd : x % 128 = (x % 128 * 128 ^ xs.length + uintvar_to_int xs) / 128 ^ xs.length := by
    rw [Nat.mul_comm, Nat.mul_add_div (Nat.pow_pos (by omega)), Nat.div_eq_of_lt hb]; rfl
  have hpos : 0 < 128 ^ xs.length := Nat.pow_pos (by omega)
  rw [he] at hd
  cases neg with
  | true =>
    simp only [if_true] at hd
    have : (64 * 128 ^ xs.length + m) / 128 ^ xs.length = 64 + m / 128 ^ xs.length := by
      rw [Nat.mul_comm, Nat.mul_add_div hpos]
    have h5 : m / 128 ^ xs.length < 64 := (Nat.div_lt_iff_lt_mul hpos).mpr hm
    rw [this] at hd
    clear this he
    generalize m / 128 ^ xs.length = y at *
    simp only [iff_true]; omega
  | false =>
    simp only [Bool.false_eq_true, if_false, Nat.zero_add] at hd
    have h5 : m / 128 ^ xs.length < 64 := (Nat.div_lt_iff_lt_mul hpos).mpr hm
    clear he
    generalize m / 128 ^ xs.length = y at *
    simp only [Bool.false_eq_true, iff_false]; omega

/-- C35: every negative number (and negative zero) in any number of groups is converted to itself. -/
theorem C35_negative (payload : List Nat) (m : Nat) (h : EncodesSigned payload true m) :
    sintvar_to_int payload = .ok (signedValue true m) := by
  rcases payload with _ | ⟨x, xs⟩
  · exact absurd rfl h.1
  have hs := (first_sign x xs true m h).mpr rfl
  have hv : clear_msb (uintvar_to_int (x :: xs)) = m := by
    rw [h.2.2]; exact clear_msb_eq _ m h.2.1
  unfold sintvar_to_int
  rw [hv]
  simp only [List.getElem?_cons_zero, if_pos hs, signedValue, if_true]

example : sintvar_to_int [0xC2, 0x2C] = .ok (-300) := C35_negative _ 300 ⟨by simp, by decide, by decide⟩

/-- C35: zero is converted to zero. -/
theorem C35_zero (payload : List Nat) (h : EncodesSigned payload false 0) : sintvar_to_int payload = .ok 0 := by
  rcases payload with _ | ⟨x, xs⟩
  · exact absurd rfl h.1
  have hs : ¬ (x &&& 0x40 > 0) := fun hc => by have := (first_sign x xs false 0 h).mp hc; cases this
  have hv : uintvar_to_int (x :: xs) = 0 := by rw [h.2.2]; rfl
  unfold sintvar_to_int
  rw [hv, clear_msb_zero]
  simp only [List.getElem?_cons_zero, if_neg hs]; rfl

example : sintvar_to_int [0x80, 0x00] = .ok 0 := C35_zero _ ⟨by simp, by decide, by decide⟩

/-- C35: every positive number is converted to the wrong number: its top data bit is lost. -/
theorem C35_positive_wrong (payload : List Nat) (m : Nat) (hm : 0 < m) (h : EncodesSigned payload false m) :
    sintvar_to_int payload = .ok ((m - 2 ^ Nat.log 2 m : Nat) : Int) ∧
    sintvar_to_int payload ≠ .ok (signedValue false m) := by
  rcases payload with _ | ⟨x, xs⟩
  · exact absurd rfl h.1
  have hs : ¬ (x &&& 0x40 > 0) := fun hc => by have := (first_sign x xs false m h).mp hc; cases this
  have hl1 : 2 ^ Nat.log 2 m ≤ m := Nat.pow_log_le_self 2 (by omega)
  have hl2 : m < 2 ^ (Nat.log 2 m + 1) := Nat.lt_pow_succ_log_self (by omega) m
  have hv : clear_msb (uintvar_to_int (x :: xs)) = m - 2 ^ Nat.log 2 m := by
    have : uintvar_to_int (x :: xs) = 2 ^ Nat.log 2 m + (m - 2 ^ Nat.log 2 m) := by
      rw [h.2.2]; simp only [Bool.false_eq_true, if_false]; omega
    rw [this]
    rw [Nat.pow_succ] at hl2
    exact clear_msb_eq _ _ (by omega)
  have he : sintvar_to_int (x :: xs) = .ok ((m - 2 ^ Nat.log 2 m : Nat) : Int) := by
    unfold sintvar_to_int
    rw [hv]
    simp only [List.getElem?_cons_zero, if_neg hs]
  refine ⟨he, ?_⟩
  rw [he]
  have hp : 0 < 2 ^ Nat.log 2 m := Nat.pow_pos (by omega)
  intro hc
  injection hc with hc
  simp only [signedValue, Bool.false_eq_true, if_false] at hc
  omega

/-- 300 is decoded as 300 - 256. -/
example : sintvar_to_int [0x82, 0x2C] = .ok 44 := by
  have h := (C35_positive_wrong [0x82, 0x2C] 300 (by decide) ⟨by simp, by decide, by decide⟩).1
  rwa [show Nat.log 2 300 = 8 from by decide] at h

/-- C35: an empty payload raises IndexError. -/
theorem C35_empty : sintvar_to_int [] = .error .index := by decide

/-- -300 in two groups, 5 in one group. -/
example : EncodesSigned [0xC2, 0x2C] true 300 ∧ EncodesSigned [0x05] false 5 := by
  refine ⟨⟨by simp, by decide, by decide⟩, ⟨by simp, by decide, by decide⟩⟩

end Dmr.Motorola
