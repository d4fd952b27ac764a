import Verif.Text
import Verif.Spec.Text
import Mathlib.Tactic.SplitIfs
/-
Helper lemmas: each decoder step inverts the corresponding encoder, hence the decoders do.
-/

set_option linter.unusedSimpArgs false

namespace Dmr
open Spec

theorem toNat_ofNat_u8 (n : Nat) (h : n < 256) : (UInt8.ofNat n).toNat = n := by
  simp [UInt8.toNat_ofNat, Nat.mod_eq_of_lt h]

theorem u8_ext {a b : UInt8} (h : a.toNat = b.toNat) : a = b := UInt8.toNat_inj.mp h

theorem char_range (c : Char) : c.toNat < 0xD800 ∨ (0xDFFF < c.toNat ∧ c.toNat < 0x110000) := by
  have := c.valid
  simp only [UInt32.isValidChar, Nat.isValidChar] at this
  exact this

theorem toNat_ofNat_char (n : Nat) (h : n < 0xD800 ∨ (0xDFFF < n ∧ n < 0x110000)) :
    (Char.ofNat n).toNat = n := by
  have hv : n.isValidChar := h
  simp only [Char.ofNat, hv, dif_pos, Char.toNat, Char.ofNatAux]
  rfl

theorem char_ext {a b : Char} (h : a.toNat = b.toNat) : a = b := by
  rw [← Char.ofNat_toNat a, ← Char.ofNat_toNat b, h]

theorem ite_none_some {α : Type} {c : Prop} [Decidable c] {x : Option α} {y : α}
    (h : (if c then x else none) = some y) : c ∧ x = some y := by
  by_cases hc : c
  · exact ⟨hc, by simpa [hc] using h⟩
  · simp [hc] at h

/-- A step function is exact for a character encoding. -/
structure StepExact (step : Bytes → Option (Char × Bytes)) (enc : Char → Bytes) : Prop where
  sound : ∀ bs c r, step bs = some (c, r) → bs = enc c ++ r
  complete : ∀ c r, step (enc c ++ r) = some (c, r)
  ne : ∀ c, enc c ≠ []

theorem decodeLoop_complete {step enc} (H : StepExact step enc) (s : PyStr) :
    ∀ fuel, (s.flatMap enc).length ≤ fuel → decodeLoop step fuel (s.flatMap enc) = some s := by
  induction s with
  | nil => intro fuel _; cases fuel <;> rfl
  | cons c cs ih =>
    intro fuel hf
    rw [List.flatMap_cons] at *
    obtain ⟨x, xs, hx⟩ := List.exists_cons_of_ne_nil (H.ne c)
    have hc := H.complete c (cs.flatMap enc)
    rw [hx, List.cons_append] at hc hf ⊢
    simp only [List.length_cons, List.length_append] at hf
    cases fuel with
    | zero => omega
    | succ f =>
      simp only [decodeLoop, hc]
      rw [ih f (by omega)]; rfl

theorem decodeLoop_sound {step enc} (H : StepExact step enc) :
    ∀ fuel bs s, decodeLoop step fuel bs = some s → s.flatMap enc = bs := by
  intro fuel
  induction fuel with
  | zero =>
    intro bs s h
    cases bs with
    | nil => simp [decodeLoop] at h; subst h; rfl
    | cons => simp [decodeLoop] at h
  | succ f ih =>
    intro bs s h
    cases bs with
    | nil => simp [decodeLoop] at h; subst h; rfl
    | cons b bs =>
      simp only [decodeLoop] at h
      split at h
      · next c r hs =>
        simp only [Option.map_eq_some_iff] at h
        obtain ⟨t, ht, rfl⟩ := h
        rw [List.flatMap_cons, ih _ _ ht, ← H.sound _ _ _ hs]
      · simp at h

theorem decodeLoop_iff {step enc} (H : StepExact step enc) (b : Bytes) (s : PyStr) :
    decodeLoop step b.length b = some s ↔ s.flatMap enc = b := by
  constructor
  · exact decodeLoop_sound H _ _ _
  · rintro rfl; exact decodeLoop_complete H s _ (Nat.le_refl _)

theorem utf8_exact : StepExact utf8Step encUtf8Char where
  ne c := by unfold encUtf8Char; dsimp only; split_ifs <;> simp
  complete c r := by
    have hr := char_range c
    unfold encUtf8Char
    dsimp only
    split_ifs with h1 h2 h3
    · have e : (UInt8.ofNat c.toNat).toNat = c.toNat := toNat_ofNat_u8 _ (by omega)
      simp only [List.cons_append, List.nil_append, utf8Step, e, h1, if_true, Char.ofNat_toNat]
    · have e0 : (UInt8.ofNat (0xC0 + c.toNat / 64)).toNat = 0xC0 + c.toNat / 64 := toNat_ofNat_u8 _ (by omega)
      have e1 : (UInt8.ofNat (0x80 + c.toNat % 64)).toNat = 0x80 + c.toNat % 64 := toNat_ofNat_u8 _ (by omega)
      simp only [List.cons_append, List.nil_append, utf8Step, inRange, e0, e1]
      rw [if_neg (by omega), if_neg (by omega), if_pos (by omega), if_pos (by simp; omega)]
      refine congrArg (fun x => some (x, r)) (char_ext ?_)
      rw [toNat_ofNat_char _ (by omega)]; omega
    · have e0 : (UInt8.ofNat (0xE0 + c.toNat / 4096)).toNat = 0xE0 + c.toNat / 4096 := toNat_ofNat_u8 _ (by omega)
      have e1 : (UInt8.ofNat (0x80 + c.toNat / 64 % 64)).toNat = 0x80 + c.toNat / 64 % 64 :=
        toNat_ofNat_u8 _ (by omega)
      have e2 : (UInt8.ofNat (0x80 + c.toNat % 64)).toNat = 0x80 + c.toNat % 64 := toNat_ofNat_u8 _ (by omega)
      simp only [List.cons_append, List.nil_append, utf8Step, inRange, e0, e1, e2]
      rw [if_neg (by omega), if_neg (by omega), if_neg (by omega), if_pos (by omega), if_pos]
      · refine congrArg (fun x => some (x, r)) (char_ext ?_)
        rw [toNat_ofNat_char _ (by omega)]; omega
      · simp only [Bool.and_eq_true, decide_eq_true_eq]
        split_ifs <;> omega
    · have e0 : (UInt8.ofNat (0xF0 + c.toNat / 262144)).toNat = 0xF0 + c.toNat / 262144 :=
        toNat_ofNat_u8 _ (by omega)
      have e1 : (UInt8.ofNat (0x80 + c.toNat / 4096 % 64)).toNat = 0x80 + c.toNat / 4096 % 64 :=
        toNat_ofNat_u8 _ (by omega)
      have e2 : (UInt8.ofNat (0x80 + c.toNat / 64 % 64)).toNat = 0x80 + c.toNat / 64 % 64 :=
        toNat_ofNat_u8 _ (by omega)
      have e3 : (UInt8.ofNat (0x80 + c.toNat % 64)).toNat = 0x80 + c.toNat % 64 := toNat_ofNat_u8 _ (by omega)
      simp only [List.cons_append, List.nil_append, utf8Step, inRange, e0, e1, e2, e3]
      rw [if_neg (by omega), if_neg (by omega), if_neg (by omega), if_neg (by omega), if_pos (by omega), if_pos]
      · refine congrArg (fun x => some (x, r)) (char_ext ?_)
        rw [toNat_ofNat_char _ (by omega)]; omega
      · simp only [Bool.and_eq_true, decide_eq_true_eq]
        split_ifs <;> omega
  sound bs c r h := by
    cases bs with
    | nil => simp [utf8Step] at h
    | cons b0 r0 =>
      have hb0 := b0.toNat_lt
      simp only [utf8Step] at h
      by_cases h1 : b0.toNat < 0x80
      · rw [if_pos h1] at h
        simp only [Option.some.injEq, Prod.mk.injEq] at h
        obtain ⟨rfl, rfl⟩ := h
        have e := toNat_ofNat_char b0.toNat (by omega)
        unfold encUtf8Char
        simp only [e, h1, if_true, List.cons_append, List.nil_append]
        rw [UInt8.ofNat_toNat]
      rw [if_neg h1] at h
      by_cases h2 : b0.toNat < 0xC2
      · rw [if_pos h2] at h; simp at h
      rw [if_neg h2] at h
      by_cases h3 : b0.toNat < 0xE0
      · rw [if_pos h3] at h
        split at h
        · next b1 r1 =>
          have hb1 := b1.toNat_lt
          obtain ⟨h6, h⟩ := ite_none_some h
          simp only [inRange, Bool.and_eq_true, decide_eq_true_eq] at h6
          simp only [Option.some.injEq, Prod.mk.injEq] at h
          obtain ⟨rfl, rfl⟩ := h
          have e := toNat_ofNat_char ((b0.toNat - 0xC0) * 64 + (b1.toNat - 0x80)) (by omega)
          unfold encUtf8Char
          simp only [e, List.cons_append, List.nil_append]
          rw [if_neg (by omega), if_pos (by omega)]
          simp only [List.cons_append, List.nil_append, List.cons.injEq, and_true]
          refine ⟨u8_ext ?_, u8_ext ?_⟩ <;> rw [toNat_ofNat_u8 _ (by omega)] <;> omega
        · simp at h
      rw [if_neg h3] at h
      by_cases h4 : b0.toNat < 0xF0
      · rw [if_pos h4] at h
        split at h
        · next b1 b2 r1 =>
          have hb1 := b1.toNat_lt
          have hb2 := b2.toNat_lt
          obtain ⟨h6, h⟩ := ite_none_some h
          simp only [inRange, Bool.and_eq_true, decide_eq_true_eq] at h6
          simp only [Option.some.injEq, Prod.mk.injEq] at h
          obtain ⟨rfl, rfl⟩ := h
          obtain ⟨⟨h7, h8⟩, h9, h10⟩ := h6
          have h11 : 0x80 ≤ b1.toNat ∧ (b0.toNat = 0xE0 → 0xA0 ≤ b1.toNat) := by
            constructor
            · split_ifs at h7 <;> omega
            · intro h; simpa [h] using h7
          have h12 : b1.toNat ≤ 0xBF ∧ (b0.toNat = 0xED → b1.toNat ≤ 0x9F) := by
            constructor
            · split_ifs at h8 <;> omega
            · intro h; simpa [h] using h8
          clear h7 h8
          have e := toNat_ofNat_char
            ((b0.toNat - 0xE0) * 4096 + (b1.toNat - 0x80) * 64 + (b2.toNat - 0x80)) (by omega)
          unfold encUtf8Char
          simp only [e, List.cons_append, List.nil_append]
          rw [if_neg (by omega), if_neg (by omega), if_pos (by omega)]
          simp only [List.cons_append, List.nil_append, List.cons.injEq, and_true]
          refine ⟨u8_ext ?_, u8_ext ?_, u8_ext ?_⟩ <;> rw [toNat_ofNat_u8 _ (by omega)] <;> omega
        · simp at h
      rw [if_neg h4] at h
      by_cases h5 : b0.toNat < 0xF5
      · rw [if_pos h5] at h
        split at h
        · next b1 b2 b3 r1 =>
          have hb1 := b1.toNat_lt
          have hb2 := b2.toNat_lt
          have hb3 := b3.toNat_lt
          obtain ⟨h6, h⟩ := ite_none_some h
          simp only [inRange, Bool.and_eq_true, decide_eq_true_eq] at h6
          simp only [Option.some.injEq, Prod.mk.injEq] at h
          obtain ⟨rfl, rfl⟩ := h
          obtain ⟨⟨⟨h7, h8⟩, h9, h10⟩, h13, h14⟩ := h6
          have h11 : 0x80 ≤ b1.toNat ∧ (b0.toNat = 0xF0 → 0x90 ≤ b1.toNat) := by
            constructor
            · split_ifs at h7 <;> omega
            · intro h; simpa [h] using h7
          have h12 : b1.toNat ≤ 0xBF ∧ (b0.toNat = 0xF4 → b1.toNat ≤ 0x8F) := by
            constructor
            · split_ifs at h8 <;> omega
            · intro h; simpa [h] using h8
          clear h7 h8
          have e := toNat_ofNat_char ((b0.toNat - 0xF0) * 262144 + (b1.toNat - 0x80) * 4096
            + (b2.toNat - 0x80) * 64 + (b3.toNat - 0x80)) (by omega)
          unfold encUtf8Char
          simp only [e, List.cons_append, List.nil_append]
          rw [if_neg (by omega), if_neg (by omega), if_neg (by omega)]
          simp only [List.cons_append, List.nil_append, List.cons.injEq, and_true]
          refine ⟨u8_ext ?_, u8_ext ?_, u8_ext ?_, u8_ext ?_⟩ <;>
            rw [toNat_ofNat_u8 _ (by omega)] <;> omega
        · simp at h
      · rw [if_neg h5] at h; simp at h

/-- Two bytes and a code unit determine each other. -/
structure UnitExact (unit : UInt8 → UInt8 → Nat) (bytes : Nat → Bytes) : Prop where
  lt : ∀ a b, unit a b < 65536
  sound : ∀ a b, bytes (unit a b) = [a, b]
  complete : ∀ u, u < 65536 → ∃ a b, bytes u = [a, b] ∧ unit a b = u

theorem unitLe_exact : UnitExact unitLe unitBytesLe where
  lt a b := by have := a.toNat_lt; have := b.toNat_lt; unfold unitLe; omega
  sound a b := by
    have := a.toNat_lt; have := b.toNat_lt
    have h1 : (a.toNat + b.toNat * 256) % 256 = a.toNat := by omega
    have h2 : (a.toNat + b.toNat * 256) / 256 = b.toNat := by omega
    simp only [unitBytesLe, unitLe, h1, h2, UInt8.ofNat_toNat]
  complete u h := by
    refine ⟨_, _, rfl, ?_⟩
    unfold unitLe
    rw [toNat_ofNat_u8 _ (by omega), toNat_ofNat_u8 _ (by omega)]; omega

theorem unitBe_exact : UnitExact unitBe unitBytesBe where
  lt a b := by have := a.toNat_lt; have := b.toNat_lt; unfold unitBe; omega
  sound a b := by
    have := a.toNat_lt; have := b.toNat_lt
    have h1 : (a.toNat * 256 + b.toNat) % 256 = b.toNat := by omega
    have h2 : (a.toNat * 256 + b.toNat) / 256 = a.toNat := by omega
    simp only [unitBytesBe, unitBe, h1, h2, UInt8.ofNat_toNat]
  complete u h := by
    refine ⟨_, _, rfl, ?_⟩
    unfold unitBe
    rw [toNat_ofNat_u8 _ (by omega), toNat_ofNat_u8 _ (by omega)]; omega

theorem utf16_exact {unit bytes} (U : UnitExact unit bytes) :
    StepExact (utf16Step unit) (fun c => (utf16Units c).flatMap bytes) where
  ne c := by
    have hr := char_range c
    unfold utf16Units
    dsimp only
    split_ifs with h
    · obtain ⟨a, b, hb, _⟩ := U.complete c.toNat h
      simp [hb]
    · obtain ⟨a, b, hb, _⟩ := U.complete (0xD800 + (c.toNat - 0x10000) / 1024) (by omega)
      simp [hb]
  complete c r := by
    have hr := char_range c
    unfold utf16Units
    dsimp only
    split_ifs with h
    · obtain ⟨a, b, hb, hu⟩ := U.complete c.toNat h
      simp only [List.flatMap_cons, List.flatMap_nil, List.append_nil, hb, List.cons_append, List.nil_append,
        utf16Step, hu]
      rw [if_pos (by omega), Char.ofNat_toNat]
    · obtain ⟨a, b, hb, hu⟩ := U.complete (0xD800 + (c.toNat - 0x10000) / 1024) (by omega)
      obtain ⟨a', b', hb', hu'⟩ := U.complete (0xDC00 + (c.toNat - 0x10000) % 1024) (by omega)
      simp only [List.flatMap_cons, List.flatMap_nil, List.append_nil, hb, hb', List.cons_append,
        List.nil_append, utf16Step, hu, hu']
      rw [if_neg (by omega), if_pos (by omega), if_pos (by omega)]
      refine congrArg (fun x => some (x, r)) (char_ext ?_)
      rw [toNat_ofNat_char _ (by omega)]; omega
  sound bs c r h := by
    match bs, h with
    | [], h => simp [utf16Step] at h
    | [_], h => simp [utf16Step] at h
    | a :: b :: r0, h =>
      have hlt := U.lt a b
      simp only [utf16Step] at h
      split_ifs at h with h1 h2
      · simp only [Option.some.injEq, Prod.mk.injEq] at h
        obtain ⟨rfl, rfl⟩ := h
        have e := toNat_ofNat_char (unit a b) (by omega)
        simp only [utf16Units, e, hlt, if_true, List.flatMap_cons, List.flatMap_nil, List.append_nil, U.sound,
          List.cons_append, List.nil_append]
      · split at h
        · next c' d r' =>
          have hlt' := U.lt c' d
          split_ifs at h with h3
          simp only [Option.some.injEq, Prod.mk.injEq] at h
          obtain ⟨rfl, rfl⟩ := h
          have e := toNat_ofNat_char (0x10000 + (unit a b - 0xD800) * 1024 + (unit c' d - 0xDC00)) (by omega)
          have h4 : ¬ (0x10000 + (unit a b - 0xD800) * 1024 + (unit c' d - 0xDC00) < 0x10000) := by omega
          have h5 : 0xD800 + (0x10000 + (unit a b - 0xD800) * 1024 + (unit c' d - 0xDC00) - 0x10000) / 1024
              = unit a b := by omega
          have h6 : 0xDC00 + (0x10000 + (unit a b - 0xD800) * 1024 + (unit c' d - 0xDC00) - 0x10000) % 1024
              = unit c' d := by omega
          simp only [utf16Units, e, h4, if_false, h5, h6, List.flatMap_cons, List.flatMap_nil, List.append_nil,
            U.sound, List.cons_append, List.nil_append]
        · simp at h

theorem decodeUtf8_iff (b : Bytes) (s : PyStr) : decodeUtf8 b = some s ↔ encUtf8 s = b :=
  decodeLoop_iff utf8_exact b s
theorem decodeUtf16le_iff (b : Bytes) (s : PyStr) : decodeUtf16le b = some s ↔ encUtf16le s = b :=
  decodeLoop_iff (utf16_exact unitLe_exact) b s
theorem decodeUtf16be_iff (b : Bytes) (s : PyStr) : decodeUtf16be b = some s ↔ encUtf16be s = b :=
  decodeLoop_iff (utf16_exact unitBe_exact) b s

theorem decodeAscii_iff (b : Bytes) (s : PyStr) : decodeAscii b = some s ↔ encAscii s = some b := by
  induction b generalizing s with
  | nil =>
    cases s with
    | nil => simp [decodeAscii, encAscii]
    | cons c cs =>
      simp only [decodeAscii, encAscii, encAsciiChar]
      constructor
      · intro h; simp at h
      · intro h
        split_ifs at h with h1
        · split at h <;> simp_all
  | cons x xs ih =>
    have hx := x.toNat_lt
    constructor
    · intro h
      simp only [decodeAscii] at h
      split_ifs at h with h1
      simp only [Option.map_eq_some_iff] at h
      obtain ⟨t, ht, rfl⟩ := h
      have e := toNat_ofNat_char x.toNat (by omega)
      simp only [encAscii, encAsciiChar, e, h1, if_true, (ih t).mp ht, UInt8.ofNat_toNat, List.cons_append,
        List.nil_append]
    · intro h
      cases s with
      | nil => simp [encAscii] at h
      | cons c cs =>
        simp only [encAscii, encAsciiChar] at h
        split_ifs at h with h1
        · cases hcs : encAscii cs with
          | none => simp [hcs] at h
          | some t =>
            simp only [hcs, Option.some.injEq, List.cons_append, List.nil_append, List.cons.injEq] at h
            obtain ⟨rfl, rfl⟩ := h
            have e : (UInt8.ofNat c.toNat).toNat = c.toNat := toNat_ofNat_u8 _ (by omega)
            simp only [decodeAscii, e, h1, if_true, (ih cs).mpr hcs, Option.map_some, Char.ofNat_toNat]

end Dmr
