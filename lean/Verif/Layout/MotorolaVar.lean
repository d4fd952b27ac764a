import Verif.Layout.Motorola
import Verif.Advance
import Verif.Layout.HomebrewVar
import Verif.Spec.MotorolaVar
/-
The variable-size Motorola decoders against `Verif/Spec/MotorolaVar.lean`.
-/

namespace Dmr.Motorola

/-- A length-prefixed optional value inside a reader. -/
theorem eval_lengthPrefixed {buf : Bytes} {q : Nat} {k : Nat → Option Bytes → Rd β}
    {g : Nat × Option Bytes → Nat → Parsed β} (hq : q ≤ buf.length)
    (h : ∀ a e, e ≤ buf.length → Rd.eval (k a.1 a.2) (Stream.at buf (8 * e)) = lift buf (g a e)) :
    Rd.eval (readU1 >>= fun n => optionally (decide (n > 0)) (readBytes n) >>= fun v => k n v) (Stream.at buf (8 * q)) =
      lift buf (next buf (lengthPrefixed buf q) g) := by
  rw [a_readU1 _ _ hq, lengthPrefixed, upTo]
  by_cases h1 : q + 1 ≤ buf.length
  · rw [if_pos h1, if_pos h1, b_optionally, upTo]
    by_cases h0 : u8 buf q = 0
    · rw [if_neg (by simp [h0]), if_pos (by omega), next, if_pos (by omega), if_pos h0]
      have := h (u8 buf q, none) (q + 1) h1
      rw [this, h0]
    · rw [if_pos (by simp; omega), a_readBytes _ _ h1]
      by_cases h2 : q + 1 + u8 buf q ≤ buf.length
      · rw [if_pos h2, if_pos h2, next, if_pos h2, if_neg h0]
        exact h (u8 buf q, some (slice buf (q + 1) (u8 buf q))) _ h2
      · rw [if_neg h2, if_neg h2]; rfl
  · rw [if_neg h1, if_neg h1]; rfl

theorem lengthPrefixed_from (b : Bytes) (q : Nat) : AtLeast (q + 1) (lengthPrefixed b q) := by
  unfold lengthPrefixed
  at_least []

/-! ### ARS -/

theorem AutomaticRegistrationService.AcknowledgementMessage.parses (h : AutomaticRegistrationService.MessageHeaderBits) :
    Parses (AutomaticRegistrationService.AcknowledgementMessage.read h)
      (AutomaticRegistrationService.AcknowledgementMessage.spec h) := by
  refine ⟨?_, ?_⟩ <;> intro buf q hq <;> unfold AutomaticRegistrationService.AcknowledgementMessage.spec
  · unfold AutomaticRegistrationService.AcknowledgementMessage.read
    rcases h with ⟨_ | _, _ | _, _, _, _⟩ <;>
      rd_simp [Bool.false_eq_true, Bool.and_true, Bool.and_false, Bool.true_and, Bool.false_and, whole]
  · refine .ite (fun _ => .ite (fun _ => InRange.as _ InRange.whole) fun _ => InRange.as _ InRange.whole) fun _ => .ok hq

theorem AutomaticRegistrationService.DeviceRegistrationMessage.parses (h : AutomaticRegistrationService.MessageHeaderBits) :
    Parses (AutomaticRegistrationService.DeviceRegistrationMessage.read h)
      (AutomaticRegistrationService.DeviceRegistrationMessage.spec h) := by
  refine ⟨?_, ?_⟩ <;> intro buf q hq <;> unfold AutomaticRegistrationService.DeviceRegistrationMessage.spec
  · unfold AutomaticRegistrationService.DeviceRegistrationMessage.read
    refine eval_optPart Iff.rfl (AutomaticRegistrationService.DeviceRegistrationMessageHeader.parses.run buf q hq)
      (AutomaticRegistrationService.DeviceRegistrationMessageHeader.parses.range buf q hq) hq fun x e he => ?_
    refine eval_lengthPrefixed he fun a e1 he1 => ?_
    refine eval_lengthPrefixed he1 fun a e2 he2 => ?_
    exact eval_lengthPrefixed he2 fun a e3 he3 => rfl
  · in_range

theorem AutomaticRegistrationService.body_parses (v : Nat) (h : AutomaticRegistrationService.MessageHeaderBits) :
    Parses (AutomaticRegistrationService.readPduContent v h) (AutomaticRegistrationService.bodySpec v h) := by
  unfold AutomaticRegistrationService.readPduContent AutomaticRegistrationService.bodySpec
  refine .ite Iff.rfl ((AutomaticRegistrationService.DeviceRegistrationMessage.parses h).map _) ?_
  refine .ite Iff.rfl ⟨fun _ _ _ => rfl, fun _ _ hq => .ok hq⟩ ?_
  refine .ite Iff.rfl ⟨fun _ _ _ => rfl, fun _ _ hq => .ok hq⟩ ?_
  refine .ite Iff.rfl ((AutomaticRegistrationService.AcknowledgementMessage.parses h).map _) ?_
  exact .none

theorem AutomaticRegistrationService.parses :
    Parses AutomaticRegistrationService.read AutomaticRegistrationService.spec := by
  refine ⟨?_, ?_⟩ <;> intro buf q hq <;> unfold AutomaticRegistrationService.spec
  · unfold AutomaticRegistrationService.read
    by_cases h : q + 3 ≤ buf.length
    · rw [upTo, if_pos h, a_readU2le _ _ hq, if_pos (by omega),
        AutomaticRegistrationService.MessageHeaderBits.b_read _ _ _ (by omega) (by omega), div8_mul, if_pos (by omega)]
      have e1 : (AutomaticRegistrationService.MessageHeaderBits.spec buf (q + 2)).pdu_type = bitsAt buf (8 * q + 20) 4 := by
        simp only [AutomaticRegistrationService.MessageHeaderBits.spec, Nat.mul_add, Nat.add_assoc, Nat.reduceMul, Nat.reduceAdd]
      rw [e1]
      refine eval_next (AutomaticRegistrationService.body_parses _ _) h fun d e he => ?_
      rw [a_readBytesFull _ _ he]; rfl
    · rw [upTo, if_neg h]
      rd_simp [if_neg, ite_self]
  · in_range

/-! ### Binary XML -/

theorem and128 (x : Nat) : (x &&& 128 = 0) ↔ x / 128 % 2 = 0 := by
  have h : (x &&& 128).testBit 7 = decide (x / 2 ^ 7 % 2 = 1) := by
    rw [Nat.testBit_and, Nat.testBit_eq_decide_div_mod_eq, show Nat.testBit 128 7 = true from by decide, Bool.and_true]
  constructor
  · intro h0; rw [h0] at h; simp at h; omega
  · intro h0
    apply Nat.eq_of_testBit_eq
    intro i
    rw [show (128 : Nat) = 2 ^ 7 from rfl, Nat.testBit_and, Nat.testBit_two_pow, Nat.zero_testBit]
    by_cases hi : 7 = i
    · subst hi; rw [Nat.testBit_eq_decide_div_mod_eq]; simp; omega
    · simp [hi]

theorem readU1_fixed : Fixed readU1 1 u8 := by
  intro buf q hq
  rd_simp []

theorem u8_advances : Advances (whole 1 u8) := by
  intro b q a e h
  have : AtLeast (q + 1) (whole 1 u8 b q) := AtLeast.whole (Nat.le_refl _)
  exact this a e h

/-- The loop of both variable length numbers. -/
theorem varLoop (buf : Bytes) (q : Nat) (hq : q ≤ buf.length) (k : List Nat → Rd β) :
    Rd.eval (loopFuel >>= fun fuel => repeatUntil fuel readU1
        (fun x => do let eof1 ← isEof; return (decide ((x &&& 128) = 0)) || eof1) >>= k) (Stream.at buf (8 * q)) =
      next buf (varBytes buf q) fun a e => Rd.eval (k a) (Stream.at buf (8 * e)) := by
  have hr : InRange buf (varBytes buf q) :=
    chain_range (fun q _ => InRange.whole) _ q (Nat.le_refl _) hq
  rw [b_loopFuel, eval_bind, eval_repeatUntil (st := fun x e => decide (x / 128 % 2 = 0) || decide (e = buf.length))
    readU1_fixed.parses u8_advances (fun a e he => by
      rw [a_isEof _ _ he]; simp only [and128]; rfl) _ q hq (by omega)]
  show andThen (lift buf (varBytes buf q)) _ = _
  rcases hx : varBytes buf q with _ | ⟨a, e⟩
  · rfl
  · rw [next, if_pos (hr a e hx)]; rfl

theorem varBytes_range (buf : Bytes) (q : Nat) (hq : q ≤ buf.length) : InRange buf (varBytes buf q) :=
  chain_range (fun q _ => InRange.whole) _ q (Nat.le_refl _) hq

theorem lift_next_as {buf : Bytes} {x : Parsed α} (hr : InRange buf x) (g : α → β) :
    (next buf x fun a e => Except.ok (g a, Stream.at buf (8 * e))) = lift buf (x.as g) := by
  rcases x with _ | ⟨a, e⟩
  · rfl
  · rw [next, if_pos (hr a e rfl)]; rfl

theorem MotorolaBinaryXml.Uintvar.parses : Parses MotorolaBinaryXml.Uintvar.read MotorolaBinaryXml.Uintvar.spec := by
  refine ⟨fun buf q hq => ?_, fun buf q hq => (varBytes_range buf q hq).as _⟩
  unfold MotorolaBinaryXml.Uintvar.read
  rw [varLoop buf q hq]
  exact lift_next_as (varBytes_range buf q hq) _
theorem MotorolaBinaryXml.Sintvar.parses : Parses MotorolaBinaryXml.Sintvar.read MotorolaBinaryXml.Sintvar.spec := by
  refine ⟨fun buf q hq => ?_, fun buf q hq => (varBytes_range buf q hq).as _⟩
  unfold MotorolaBinaryXml.Sintvar.read
  rw [varLoop buf q hq]
  exact lift_next_as (varBytes_range buf q hq) _

theorem MotorolaBinaryXml.ConstantDataTableReference.parses :
    Parses MotorolaBinaryXml.ConstantDataTableReference.read MotorolaBinaryXml.ConstantDataTableReference.spec := by
  refine (MotorolaBinaryXml.Uintvar.parses.map MotorolaBinaryXml.ConstantDataTableReference.mk).congr fun b q _ => ?_
  unfold MotorolaBinaryXml.Uintvar.spec MotorolaBinaryXml.ConstantDataTableReference.spec
  rcases varBytes b q with _ | ⟨_, _⟩ <;> rfl

theorem MotorolaBinaryXml.Ufloatvar.parses : Parses MotorolaBinaryXml.Ufloatvar.read MotorolaBinaryXml.Ufloatvar.spec := by
  refine ⟨?_, ?_⟩ <;> intro buf q hq <;> unfold MotorolaBinaryXml.Ufloatvar.spec
  · unfold MotorolaBinaryXml.Ufloatvar.read
    rw [MotorolaBinaryXml.Uintvar.parses.b _ buf _ (by omega) (by omega), div8_mul, lift_next,
      MotorolaBinaryXml.Uintvar.spec, next_as]
    refine next_congr fun a e he => ?_
    rw [MotorolaBinaryXml.Uintvar.parses.b _ buf _ (by omega) (by omega), div8_mul, lift_next,
      MotorolaBinaryXml.Uintvar.spec, next_as]
    rfl
  · in_range
theorem MotorolaBinaryXml.Sfloatvar.parses : Parses MotorolaBinaryXml.Sfloatvar.read MotorolaBinaryXml.Sfloatvar.spec := by
  refine ⟨?_, ?_⟩ <;> intro buf q hq <;> unfold MotorolaBinaryXml.Sfloatvar.spec
  · unfold MotorolaBinaryXml.Sfloatvar.read
    rw [MotorolaBinaryXml.Sintvar.parses.b _ buf _ (by omega) (by omega), div8_mul, lift_next,
      MotorolaBinaryXml.Sintvar.spec, next_as]
    refine next_congr fun a e he => ?_
    rw [MotorolaBinaryXml.Uintvar.parses.b _ buf _ (by omega) (by omega), div8_mul, lift_next,
      MotorolaBinaryXml.Uintvar.spec, next_as]
    rfl
  · in_range

parse_layout MotorolaBinaryXml.OpaqueElementValue []

theorem MotorolaBinaryXml.LrrpElement.body_parses (v : Nat) :
    Parses (MotorolaBinaryXml.LrrpElement.readLrrpElementData (resolveEnum _ v))
      (MotorolaBinaryXml.LrrpElement.bodySpec v) := by
  unfold MotorolaBinaryXml.LrrpElement.readLrrpElementData MotorolaBinaryXml.LrrpElement.bodySpec
  refine .caseEnum rfl (MotorolaBinaryXml.OpaqueElementValue.parses.map _) ?_
  refine .caseEnum rfl (MotorolaBinaryXml.Opaque1byteValue.parses.map _) ?_
  refine .caseEnum rfl (MotorolaBinaryXml.ConstantDataTableReference.parses.map _) ?_
  exact .none

parse_layout MotorolaBinaryXml.LrrpElement [(MotorolaBinaryXml.LrrpElement.body_parses _).b]

theorem MotorolaBinaryXml.MbxmlDocument.parses :
    Parses MotorolaBinaryXml.MbxmlDocument.read MotorolaBinaryXml.MbxmlDocument.spec := by
  refine ⟨?_, ?_⟩ <;> intro buf q hq <;> unfold MotorolaBinaryXml.MbxmlDocument.spec
  · unfold MotorolaBinaryXml.MbxmlDocument.read
    rw [b_asEnum, a_readU1 _ _ hq, upTo, lift_ite]
    refine ite_right fun h => ?_
    rw [MotorolaBinaryXml.Uintvar.parses.b _ buf _ (by omega) (by omega), div8_mul, lift_next,
      MotorolaBinaryXml.Uintvar.spec, next_as]
    refine next_congr fun a e he => ?_
    unfold MotorolaBinaryXml.MbxmlDocument.readDocumentData MotorolaBinaryXml.LrrpImmediateRequestNcdt.read
    have hc : (resolveEnum MotorolaBinaryXml.Docids (u8 buf q) = .known .lrrp_immediate_request_ncdt) = (u8 buf q = 5) := by
      rw [resolveEnum_eq_known]; rfl
    simp only [hc, optPart, b_ite]
    by_cases h5 : u8 buf q = 5
    · simp only [h5, if_true]
      rw [b_assoc, b_assoc, MotorolaBinaryXml.LrrpElement.parses.b _ buf _ (by omega) (by omega), div8_mul, next_as, lift_next]
      rfl
    · simp only [h5, if_false]
      rw [next, if_pos he]; rfl
  · in_range

theorem varBytes_from (b : Bytes) (q : Nat) : AtLeast (q + 1) (varBytes b q) := by
  intro a e h
  unfold varBytes at h
  rw [chain] at h
  rcases hx : whole 1 u8 b q with _ | ⟨v, e1⟩ <;> simp only [hx] at h
  · cases h
  · have h1 := u8_advances b q v e1 hx
    split at h
    · cases h; exact h1
    · by_cases hc : q < e1 ∧ e1 ≤ b.length
      · rw [dif_pos hc] at h
        rcases hy : chain (whole 1 u8) (fun x e => decide (x / 128 % 2 = 0) || decide (e = b.length)) b e1 with _ | ⟨as, e2⟩ <;>
          simp only [hy] at h
        · cases h
        · cases h
          exact Nat.le_trans (Nat.succ_le_of_lt h1)
            (Nat.le_of_lt (Nat.lt_of_succ_le (varBytes_from b e1 _ _ hy)))
      · rw [dif_neg hc] at h; cases h
termination_by b.length - q
decreasing_by omega

theorem MotorolaBinaryXml.LrrpElement.spec_from (b : Bytes) (q : Nat) : AtLeast (q + 1) (MotorolaBinaryXml.LrrpElement.spec b q) := by
  have hb : ∀ v q, AtLeast q (MotorolaBinaryXml.LrrpElement.bodySpec v b q) := by
    intro v q
    unfold MotorolaBinaryXml.LrrpElement.bodySpec MotorolaBinaryXml.OpaqueElementValue.spec
      MotorolaBinaryXml.ConstantDataTableReference.spec
    at_least [varBytes_from b q]
  unfold MotorolaBinaryXml.LrrpElement.spec
  at_least [hb _ _]

theorem MotorolaBinaryXml.MbxmlDocument.advances : Advances MotorolaBinaryXml.MbxmlDocument.spec := by
  intro b q
  have : AtLeast (q + 1) (MotorolaBinaryXml.MbxmlDocument.spec b q) := by
    unfold MotorolaBinaryXml.MbxmlDocument.spec
    refine .upTo (.next (varBytes_from b (q + 1)) fun a e he => ?_)
    refine .next (n := q + 1) (.optPart (by omega) ((MotorolaBinaryXml.LrrpElement.spec_from b e).mono (by omega)))
      fun a' e' he' => .ok he'
  exact this

theorem MotorolaBinaryXml.parses : Parses MotorolaBinaryXml.read MotorolaBinaryXml.spec := by
  have hr : ∀ buf q, q ≤ buf.length → InRange buf (chain MotorolaBinaryXml.MbxmlDocument.spec
      (fun _ e => decide (e ≠ buf.length)) buf q) := fun buf q hq =>
    chain_range (fun q hq => MotorolaBinaryXml.MbxmlDocument.parses.range buf q hq) _ q (Nat.le_refl _) hq
  refine ⟨fun buf q hq => ?_, fun buf q hq => (hr buf q hq).as _⟩
  unfold MotorolaBinaryXml.read MotorolaBinaryXml.spec
  rw [b_loopFuel, eval_bind, eval_repeatUntil (st := fun _ e => decide (e ≠ buf.length))
    MotorolaBinaryXml.MbxmlDocument.parses MotorolaBinaryXml.MbxmlDocument.advances (fun a e he => by
      rw [a_isEof _ _ he, decide_not]; rfl) _ q hq (by omega)]
  rcases chain MotorolaBinaryXml.MbxmlDocument.spec (fun _ e => decide (e ≠ buf.length)) buf q with _ | ⟨a, e⟩ <;> rfl

/-! ### Text messages -/

theorem TextMessageProtocol.TextMessage.parses (h : TextMessageProtocol.MessageHeaderBits) :
    Parses (TextMessageProtocol.TextMessage.read h) (TextMessageProtocol.TextMessage.spec h) := by
  refine ⟨?_, ?_⟩ <;> intro buf q hq <;> unfold TextMessageProtocol.TextMessage.spec
  · unfold TextMessageProtocol.TextMessage.read
    rw [b_optionally, lift_ite]
    refine ite_both (fun _ => ?_) fun _ => ?_
    · unfold TextMessageProtocol.TextMessageHeaderSequenceAndEncoding.read
        TextMessageProtocol.TextMessageHeaderSequenceAndEncoding.spec
      by_cases h2 : q + 2 ≤ buf.length
      · rw [upTo, if_pos h2]
        rd_simp [↓if_pos]
        by_cases hf : flagAt buf (8 * q) = true
        · simp only [hf, if_true]
        · simp only [hf, if_false, Bool.false_eq_true]
      · rw [upTo, if_neg h2]
        rd_simp [if_neg, ite_self]
    · exact eval_textEnd rfl hq fun _ => rfl
  · in_range

theorem TextMessageProtocol.TmsAcknowledgementHeaderSequenceNumber.parses :
    Parses TextMessageProtocol.TmsAcknowledgementHeaderSequenceNumber.read
      TextMessageProtocol.TmsAcknowledgementHeaderSequenceNumber.spec := by
  refine ⟨?_, ?_⟩ <;> intro buf q hq <;> unfold TextMessageProtocol.TmsAcknowledgementHeaderSequenceNumber.spec
  · unfold TextMessageProtocol.TmsAcknowledgementHeaderSequenceNumber.read
    rd_simp []
    refine ite_right fun h1 => ?_
    by_cases hf : flagAt buf (8 * q) = true
    · by_cases h2 : q + 2 ≤ buf.length <;> simp only [hf, h2, if_true, if_false, Nat.mul_add, Nat.reduceMul]
    · simp only [hf, if_false, Bool.false_eq_true, Nat.mul_add, Nat.reduceMul]
  · in_range

theorem TextMessageProtocol.TmsAcknowledgement.parses (h : TextMessageProtocol.MessageHeaderBits) :
    Parses (TextMessageProtocol.TmsAcknowledgement.read h) (TextMessageProtocol.TmsAcknowledgement.spec h) :=
  (Parses.optionally Iff.rfl TextMessageProtocol.TmsAcknowledgementHeaderSequenceNumber.parses).map _

theorem TextMessageProtocol.TmsServiceAvailability.parses (h : TextMessageProtocol.MessageHeaderBits) :
    Parses (TextMessageProtocol.TmsServiceAvailability.read h) (TextMessageProtocol.TmsServiceAvailability.spec h) :=
  (Parses.optionally Iff.rfl TextMessageProtocol.TmsServiceAvailabilityHeader.parses).map _

theorem TextMessageProtocol.body_parses (h : TextMessageProtocol.MessageHeaderBits) (hp : h.pdu_type < 16) :
    Parses (TextMessageProtocol.readPduContent (TextMessageProtocol.customPduType h) h)
      (TextMessageProtocol.bodySpec h.acknowledgement_required h.control_user_bit h.pdu_type h) := by
  unfold TextMessageProtocol.readPduContent TextMessageProtocol.bodySpec
  have hv : TextMessageProtocol.customPduType h =
      32 * h.acknowledgement_required.toNat + 16 * h.control_user_bit.toNat + h.pdu_type := by
    simp only [TextMessageProtocol.customPduType, Nat.shiftLeft_eq]; omega
  rw [hv]
  refine .ite ?_ ((TextMessageProtocol.TmsServiceAvailability.parses h).map _) ?_
  · cases h.acknowledgement_required <;> cases h.control_user_bit <;> simp <;> omega
  refine .ite ?_ ((TextMessageProtocol.TmsAcknowledgement.parses h).map _) ?_
  · cases h.acknowledgement_required <;> cases h.control_user_bit <;> simp <;> omega
  have hx : ∀ (c d : Prop) [Decidable c] [Decidable d] (x y : Rd (Option TextMessageProtocol.PduContentUnion)),
      (if c then x else if d then x else y) = if c ∨ d then x else y := by
    intro c d _ _ x y
    by_cases hc : c <;> by_cases hd : d <;> simp [hc, hd]
  rw [hx]
  refine .ite ?_ ((TextMessageProtocol.TextMessage.parses h).map _) .none
  cases h.acknowledgement_required <;> cases h.control_user_bit <;> simp <;> omega

theorem TextMessageProtocol.parses : Parses TextMessageProtocol.read TextMessageProtocol.spec := by
  refine ⟨?_, ?_⟩ <;> intro buf q hq <;> unfold TextMessageProtocol.spec
  · unfold TextMessageProtocol.read
    by_cases h : q + 3 ≤ buf.length
    · rw [upTo, if_pos h, a_readU2be _ _ hq, if_pos (by omega),
        TextMessageProtocol.MessageHeaderBits.b_read _ _ _ (by omega) (by omega), div8_mul, if_pos (by omega)]
      refine eval_lengthPrefixed h fun a e he => ?_
      have hp : (TextMessageProtocol.MessageHeaderBits.spec buf (q + 2)).pdu_type < 16 := bitsAt_lt _ _ 4
      have := TextMessageProtocol.body_parses (.spec buf (q + 2)) hp
      simp only [TextMessageProtocol.MessageHeaderBits.spec, Nat.mul_add, Nat.reduceMul, Nat.add_assoc, Nat.reduceAdd] at this ⊢
      refine eval_next this he fun d e he => ?_
      rw [a_readBytesFull _ _ he]; rfl
    · rw [upTo, if_neg h]
      rd_simp [if_neg, ite_self]
  · in_range

end Dmr.Motorola
