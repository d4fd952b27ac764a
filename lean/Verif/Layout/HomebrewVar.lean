import Verif.Layout.Homebrew
import Verif.Advance
import Verif.TextProofs
import Verif.Spec.HomebrewVar
/-
The variable-size Homebrew / MMDVM decoders against `Verif/Spec/HomebrewVar.lean`.
-/

namespace Dmr

/-- A text field inside a reader. -/
theorem eval_textAt {c : Bytes → Option PyStr} {n : Nat} {buf : Bytes} {q o : Nat} {k : PyStr → Rd β}
    {g : PyStr → Parsed β} (ho : o = q) (hq : q ≤ buf.length)
    (h : q + n ≤ buf.length → ∀ t, Rd.eval (k t) (Stream.at buf (8 * (q + n))) = lift buf (g t)) :
    Rd.eval (decodeWith c (readBytes n) >>= k) (Stream.at buf (8 * q)) = lift buf (textAt c buf o n g) := by
  subst ho
  rw [b_decodeWith, a_readBytes buf _ hq, textAt, lift_ite]
  refine ite_right fun h1 => ?_
  rw [e_matchText]
  rcases c (slice buf o n) with _ | t
  · rfl
  · exact h h1 t

/-- Text up to the end of the data. -/
theorem eval_textEnd {c : Bytes → Option PyStr} {buf : Bytes} {q o : Nat} {k : PyStr → Rd β}
    {g : PyStr → Parsed β} (ho : o = q) (hq : q ≤ buf.length)
    (h : ∀ t, Rd.eval (k t) (Stream.at buf (8 * buf.length)) = lift buf (g t)) :
    Rd.eval (decodeWith c readBytesFull >>= k) (Stream.at buf (8 * q)) =
      lift buf (decoded (c (buf.drop o)) g) := by
  subst ho
  rw [b_decodeWith, a_readBytesFull buf _ hq, e_matchText]
  rcases c (buf.drop o) with _ | t
  · rfl
  · exact h t

namespace Homebrew

/-- Fixed bytes followed by a 32 bit number. -/
theorem magicThenId_parses {n : Nat} {v : Bytes} {path : String} {mk : Bytes → Nat → α} (hv : v.length = n) :
    Parses (do let m ← readBytes n; validateEq m v path; let id ← readU4be; return mk m id)
      (magicThenId v path mk) := by
  subst hv
  refine ⟨?_, ?_⟩ <;> intro buf q hq
  · unfold magicThenId
    refine eval_fixedAt rfl hq fun h _ => ?_
    rw [a_readU4be _ _ h, upTo, lift_ite]; rfl
  · unfold magicThenId
    refine .fixedAt fun _ => .upTo fun h => .ok h

/-- A one byte ASCII text. -/
theorem decodeAscii_one (b : Bytes) (o : Nat) (h : o + 1 ≤ b.length) :
    decodeAscii (slice b o 1) = if u8 b o < 128 then some [Char.ofNat (u8 b o)] else none := by
  have e : slice b o 1 = [b[o]] := by
    unfold slice
    rw [List.drop_eq_getElem_cons (by omega), List.take_succ_cons, List.take_zero]
  have e2 : u8 b o = (b[o]).toNat := by simp [u8, List.getElem?_eq_getElem (by omega : o < b.length)]
  rw [e, e2]
  by_cases h1 : (b[o]).toNat < 128 <;> simp [decodeAscii, h1]

theorem char_L (n : Nat) (h : n < 128) : [Char.ofNat n] = "L".toList ↔ n = 0x4c := by
  constructor
  · intro e
    have e' : Char.ofNat n = 'L' := by simpa using e
    have := congrArg Char.toNat e'
    rw [toNat_ofNat_char n (by omega)] at this
    exact this
  · rintro rfl; rfl


/-! ### Homebrew2015 -/

theorem Homebrew2015.TypeMasterPing.parses : Parses Homebrew2015.TypeMasterPing.read Homebrew2015.TypeMasterPing.spec := magicThenId_parses rfl
theorem Homebrew2015.TypeRepeaterPong.parses : Parses Homebrew2015.TypeRepeaterPong.read Homebrew2015.TypeRepeaterPong.spec := magicThenId_parses rfl
theorem Homebrew2015.TypeRepeaterClosing.parses : Parses Homebrew2015.TypeRepeaterClosing.read Homebrew2015.TypeRepeaterClosing.spec := magicThenId_parses rfl
theorem Homebrew2015.TypeMasterNotAccept.parses : Parses Homebrew2015.TypeMasterNotAccept.read Homebrew2015.TypeMasterNotAccept.spec := magicThenId_parses rfl
theorem Homebrew2015.TypeMasterClosing.parses : Parses Homebrew2015.TypeMasterClosing.read Homebrew2015.TypeMasterClosing.spec := magicThenId_parses rfl

theorem Homebrew2015.TypeRepeaterConfiguration.parses :
    Parses Homebrew2015.TypeRepeaterConfiguration.read Homebrew2015.TypeRepeaterConfiguration.spec := by
  refine ⟨?_, ?_⟩ <;> intro buf q hq <;> unfold Homebrew2015.TypeRepeaterConfiguration.spec
  · unfold Homebrew2015.TypeRepeaterConfiguration.read
    rw [a_readU4be _ _ hq, upTo, lift_ite]
    refine ite_right fun h0 => ?_
    iterate 13 refine eval_textAt (by simp only [Nat.add_assoc]) (by assumption) fun _ _ => ?_
    refine eval_textEnd (by simp only [Nat.add_assoc]) (by assumption) fun _ => ?_
    rfl
  · in_range

theorem Homebrew2015.computeFifthLetter_eval (buf : Bytes) (q : Nat) (k : PyStr → Rd β) :
    Rd.eval (Homebrew2015.computeFifthLetter >>= k) (Stream.at buf (8 * q)) =
      upTo buf 5 (if 128 ≤ u8 buf 4 then .error .unicode
        else Rd.eval (k [Char.ofNat (u8 buf 4)]) (Stream.at buf (8 * q))) := by
  unfold Homebrew2015.computeFifthLetter
  have hp : (8 * q + 7) / 8 = q := by omega
  simp only [b_assoc, b_posIo, hp, b_seekIo _ _ _ _ (Nat.mul_mod_right 8 q), b_decodeWith]
  by_cases h : 5 ≤ buf.length
  · rw [a_readBytes buf 4 (by omega), if_pos h, upTo, if_pos h, e_matchText, decodeAscii_one buf 4 h]
    by_cases h1 : u8 buf 4 < 128
    · rw [if_pos h1, if_neg (by omega)]
      simp only [decoded, b_assoc]
      rw [b_seekIo _ _ _ _ (Nat.mul_mod_right 8 _)]; rfl
    · rw [if_neg h1, if_pos (by omega)]; rfl
  · rw [upTo, if_neg h, eval_bind]
    have : Rd.eval (readBytes 1) (Stream.at buf (8 * 4)) = .error .eof := by
      simp only [readBytes, eval_bind]
      rw [eval_alignToByte, andThen_ok, (by omega : (8 * 4 + 7) / 8 = 4), Stream.at_byte]
      unfold Rd.eval
      rw [readBytesNotAligned_eq, if_neg (by simp only []; omega)]
    rw [this]; rfl

theorem Homebrew2015.TypeRepeaterConfigurationOrClosing.parses :
    Parses Homebrew2015.TypeRepeaterConfigurationOrClosing.read Homebrew2015.TypeRepeaterConfigurationOrClosing.spec := by
  refine ⟨?_, ?_⟩ <;> intro buf q hq <;> unfold Homebrew2015.TypeRepeaterConfigurationOrClosing.spec
  · unfold Homebrew2015.TypeRepeaterConfigurationOrClosing.read
    rw [Homebrew2015.computeFifthLetter_eval, upTo, upTo, lift_ite]
    refine ite_right fun _ => ?_
    rw [lift_ite]
    refine ite_both (fun _ => rfl) fun h1 => ?_
    unfold Homebrew2015.TypeRepeaterConfigurationOrClosing.readData
    have hL := char_L (u8 buf 4) (by omega)
    by_cases h2 : u8 buf 4 = 0x4c
    · rw [if_pos (hL.mpr h2), if_pos h2]
      rw [b_assoc, eval_bind, Homebrew2015.TypeRepeaterClosing.parses.run buf q hq]
      rcases Homebrew2015.TypeRepeaterClosing.spec buf q with _ | ⟨_, _⟩ <;> rfl
    · rw [if_neg (fun h => h2 (hL.mp h)), if_neg h2]
      rw [b_assoc, eval_bind, Homebrew2015.TypeRepeaterConfiguration.parses.run buf q hq]
      rcases Homebrew2015.TypeRepeaterConfiguration.spec buf q with _ | ⟨_, _⟩ <;> rfl
  · refine .upTo fun _ => .ite (fun _ => .error _ _) fun _ => .ite (fun _ => ?_) fun _ => ?_
    · exact (Homebrew2015.TypeRepeaterClosing.parses.range buf q hq).as _
    · exact (Homebrew2015.TypeRepeaterConfiguration.parses.range buf q hq).as _

theorem Homebrew2015.TypeDmrData.parses : Parses Homebrew2015.TypeDmrData.read Homebrew2015.TypeDmrData.spec := by
  refine ⟨?_, ?_⟩ <;> intro buf q hq <;> unfold Homebrew2015.TypeDmrData.spec
  · unfold Homebrew2015.TypeDmrData.read
    by_cases h : q + 49 ≤ buf.length
    · rw [upTo, if_pos h]
      rd_simp [↓if_pos]
      by_cases h1 : q + 49 = buf.length
      · have h2 : ¬ q + 49 < buf.length := by omega
        simp only [optPart, whole, if_neg h2, h1, next, Nat.le_refl, if_true, not_true_eq_false, if_false,
          Nat.lt_irrefl, Nat.mul_add, Nat.reduceMul, lift_ok]
      · have h2 : q + 49 < buf.length := by omega
        by_cases h3 : q + 50 = buf.length
        · simp only [optPart, whole, h1, h2, h3, next, Nat.le_refl, if_true, not_true_eq_false, if_false,
            not_false_eq_true, Nat.add_assoc, Nat.reduceAdd, Parsed.as, Nat.lt_irrefl, Nat.mul_add, Nat.reduceMul, lift_ok]
        · have h4 : q + 50 < buf.length := by omega
          have h5 : q + 50 ≤ buf.length := by omega
          have h6 : q + 51 ≤ buf.length := by omega
          simp only [optPart, whole, h1, h2, h3, h4, h5, h6, next, Nat.le_refl, if_true, not_true_eq_false, if_false,
            not_false_eq_true, Nat.add_assoc, Nat.reduceAdd, Parsed.as, Nat.lt_irrefl, Nat.mul_add, Nat.reduceMul, lift_ok]
    · rw [upTo, if_neg h]
      rd_simp [if_neg, ite_self]
  · in_range

theorem Homebrew2015.TypeRepeaterOptions.parses : Parses Homebrew2015.TypeRepeaterOptions.read Homebrew2015.TypeRepeaterOptions.spec := by
  refine ⟨?_, ?_⟩ <;> intro buf q hq <;> unfold Homebrew2015.TypeRepeaterOptions.spec
  · unfold Homebrew2015.TypeRepeaterOptions.read
    rw [a_readU4be _ _ hq, upTo, lift_ite]
    refine ite_right fun h0 => eval_textEnd rfl h0 fun _ => rfl
  · in_range

theorem Homebrew2015.TypeMasterRepeaterAck.parses :
    Parses Homebrew2015.TypeMasterRepeaterAck.read Homebrew2015.TypeMasterRepeaterAck.spec := by
  refine ⟨?_, ?_⟩ <;> intro buf q hq <;> unfold Homebrew2015.TypeMasterRepeaterAck.spec
  · unfold Homebrew2015.TypeMasterRepeaterAck.read
    refine eval_fixedAt rfl hq fun h _ => ?_
    rw [a_readU4be _ _ h, upTo, lift_ite]
    refine ite_right fun h1 => ?_
    rw [a_isEof _ _ h1]
    refine eval_optPart (by simp; omega) ?_ InRange.whole h1 fun rn e he => rfl
    rd_simp [whole]
  · in_range

theorem Homebrew2015.body_parses (t : PyStr) : Parses (Homebrew2015.readCommandData t) (Homebrew2015.bodySpec t) := by
  unfold Homebrew2015.readCommandData Homebrew2015.bodySpec
  refine .ite Iff.rfl (Homebrew2015.TypeRepeaterLoginRequest.parses.map _) ?_
  refine .ite Iff.rfl (Homebrew2015.TypeMasterRepeaterAck.parses.map _) ?_
  refine .ite Iff.rfl (Homebrew2015.TypeRepeaterLoginResponse.parses.map _) ?_
  refine .ite Iff.rfl (Homebrew2015.TypeRepeaterConfigurationOrClosing.parses.map _) ?_
  refine .ite Iff.rfl (Homebrew2015.TypeDmrData.parses.map _) ?_
  refine .ite Iff.rfl (Homebrew2015.TypeMasterClosing.parses.map _) ?_
  refine .ite Iff.rfl (Homebrew2015.TypeRepeaterPong.parses.map _) ?_
  refine .ite Iff.rfl (Homebrew2015.TypeMasterPing.parses.map _) ?_
  refine .ite Iff.rfl (Homebrew2015.TypeMasterNotAccept.parses.map _) ?_
  exact .none

theorem Homebrew2015.parses : Parses Homebrew2015.read Homebrew2015.spec := by
  refine ⟨?_, ?_⟩ <;> intro buf q hq <;> unfold Homebrew2015.spec
  · refine eval_textAt rfl hq fun h t => ?_
    exact eval_next (Homebrew2015.body_parses t) h fun _ _ _ => rfl
  · in_range


/-! ### Mmdvm2020 -/

theorem Mmdvm2020.TypeMasterPong.parses : Parses Mmdvm2020.TypeMasterPong.read Mmdvm2020.TypeMasterPong.spec := magicThenId_parses rfl
theorem Mmdvm2020.TypeRepeaterPing.parses : Parses Mmdvm2020.TypeRepeaterPing.read Mmdvm2020.TypeRepeaterPing.spec := magicThenId_parses rfl
theorem Mmdvm2020.TypeRepeaterClosing.parses : Parses Mmdvm2020.TypeRepeaterClosing.read Mmdvm2020.TypeRepeaterClosing.spec := magicThenId_parses rfl
theorem Mmdvm2020.TypeMasterNotAccept.parses : Parses Mmdvm2020.TypeMasterNotAccept.read Mmdvm2020.TypeMasterNotAccept.spec := magicThenId_parses rfl
theorem Mmdvm2020.TypeMasterClosing.parses : Parses Mmdvm2020.TypeMasterClosing.read Mmdvm2020.TypeMasterClosing.spec := magicThenId_parses rfl
theorem Mmdvm2020.TypeMasterRepeaterAck.parses : Parses Mmdvm2020.TypeMasterRepeaterAck.read Mmdvm2020.TypeMasterRepeaterAck.spec := magicThenId_parses rfl

theorem Mmdvm2020.TypeRepeaterConfiguration.parses :
    Parses Mmdvm2020.TypeRepeaterConfiguration.read Mmdvm2020.TypeRepeaterConfiguration.spec := by
  refine ⟨?_, ?_⟩ <;> intro buf q hq <;> unfold Mmdvm2020.TypeRepeaterConfiguration.spec
  · unfold Mmdvm2020.TypeRepeaterConfiguration.read
    rw [a_readU4be _ _ hq, upTo, lift_ite]
    refine ite_right fun h0 => ?_
    iterate 14 refine eval_textAt (by simp only [Nat.add_assoc]) (by assumption) fun _ _ => ?_
    refine eval_textEnd (by simp only [Nat.add_assoc]) (by assumption) fun _ => ?_
    rfl
  · in_range

theorem Mmdvm2020.computeFifthLetter_eval (buf : Bytes) (q : Nat) (k : PyStr → Rd β) :
    Rd.eval (Mmdvm2020.computeFifthLetter >>= k) (Stream.at buf (8 * q)) =
      upTo buf 5 (if 128 ≤ u8 buf 4 then .error .unicode
        else Rd.eval (k [Char.ofNat (u8 buf 4)]) (Stream.at buf (8 * q))) := by
  unfold Mmdvm2020.computeFifthLetter
  have hp : (8 * q + 7) / 8 = q := by omega
  simp only [b_assoc, b_posIo, hp, b_seekIo _ _ _ _ (Nat.mul_mod_right 8 q), b_decodeWith]
  by_cases h : 5 ≤ buf.length
  · rw [a_readBytes buf 4 (by omega), if_pos h, upTo, if_pos h, e_matchText, decodeAscii_one buf 4 h]
    by_cases h1 : u8 buf 4 < 128
    · rw [if_pos h1, if_neg (by omega)]
      simp only [decoded, b_assoc]
      rw [b_seekIo _ _ _ _ (Nat.mul_mod_right 8 _)]; rfl
    · rw [if_neg h1, if_pos (by omega)]; rfl
  · rw [upTo, if_neg h, eval_bind]
    have : Rd.eval (readBytes 1) (Stream.at buf (8 * 4)) = .error .eof := by
      simp only [readBytes, eval_bind]
      rw [eval_alignToByte, andThen_ok, (by omega : (8 * 4 + 7) / 8 = 4), Stream.at_byte]
      unfold Rd.eval
      rw [readBytesNotAligned_eq, if_neg (by simp only []; omega)]
    rw [this]; rfl

theorem Mmdvm2020.TypeRepeaterConfigurationOrClosing.parses :
    Parses Mmdvm2020.TypeRepeaterConfigurationOrClosing.read Mmdvm2020.TypeRepeaterConfigurationOrClosing.spec := by
  refine ⟨?_, ?_⟩ <;> intro buf q hq <;> unfold Mmdvm2020.TypeRepeaterConfigurationOrClosing.spec
  · unfold Mmdvm2020.TypeRepeaterConfigurationOrClosing.read
    rw [Mmdvm2020.computeFifthLetter_eval, upTo, upTo, lift_ite]
    refine ite_right fun _ => ?_
    rw [lift_ite]
    refine ite_both (fun _ => rfl) fun h1 => ?_
    unfold Mmdvm2020.TypeRepeaterConfigurationOrClosing.readData
    have hL := char_L (u8 buf 4) (by omega)
    by_cases h2 : u8 buf 4 = 0x4c
    · rw [if_pos (hL.mpr h2), if_pos h2]
      rw [b_assoc, eval_bind, Mmdvm2020.TypeRepeaterClosing.parses.run buf q hq]
      rcases Mmdvm2020.TypeRepeaterClosing.spec buf q with _ | ⟨_, _⟩ <;> rfl
    · rw [if_neg (fun h => h2 (hL.mp h)), if_neg h2]
      rw [b_assoc, eval_bind, Mmdvm2020.TypeRepeaterConfiguration.parses.run buf q hq]
      rcases Mmdvm2020.TypeRepeaterConfiguration.spec buf q with _ | ⟨_, _⟩ <;> rfl
  · refine .upTo fun _ => .ite (fun _ => .error _ _) fun _ => .ite (fun _ => ?_) fun _ => ?_
    · exact (Mmdvm2020.TypeRepeaterClosing.parses.range buf q hq).as _
    · exact (Mmdvm2020.TypeRepeaterConfiguration.parses.range buf q hq).as _

theorem Mmdvm2020.TypeDmrData.parses : Parses Mmdvm2020.TypeDmrData.read Mmdvm2020.TypeDmrData.spec := by
  refine ⟨?_, ?_⟩ <;> intro buf q hq <;> unfold Mmdvm2020.TypeDmrData.spec
  · unfold Mmdvm2020.TypeDmrData.read
    by_cases h : q + 49 ≤ buf.length
    · rw [upTo, if_pos h]
      rd_simp [↓if_pos]
      by_cases h1 : q + 49 = buf.length
      · have h2 : ¬ q + 49 < buf.length := by omega
        simp only [optPart, whole, if_neg h2, h1, next, Nat.le_refl, if_true, not_true_eq_false, if_false,
          Nat.lt_irrefl, Nat.mul_add, Nat.reduceMul, lift_ok]
      · have h2 : q + 49 < buf.length := by omega
        by_cases h3 : q + 50 = buf.length
        · simp only [optPart, whole, h1, h2, h3, next, Nat.le_refl, if_true, not_true_eq_false, if_false,
            not_false_eq_true, Nat.add_assoc, Nat.reduceAdd, Parsed.as, Nat.lt_irrefl, Nat.mul_add, Nat.reduceMul, lift_ok]
        · have h4 : q + 50 < buf.length := by omega
          have h5 : q + 50 ≤ buf.length := by omega
          have h6 : q + 51 ≤ buf.length := by omega
          simp only [optPart, whole, h1, h2, h3, h4, h5, h6, next, Nat.le_refl, if_true, not_true_eq_false, if_false,
            not_false_eq_true, Nat.add_assoc, Nat.reduceAdd, Parsed.as, Nat.lt_irrefl, Nat.mul_add, Nat.reduceMul, lift_ok]
    · rw [upTo, if_neg h]
      rd_simp [if_neg, ite_self]
  · in_range

theorem Mmdvm2020.TypeRepeaterOptions.parses : Parses Mmdvm2020.TypeRepeaterOptions.read Mmdvm2020.TypeRepeaterOptions.spec := by
  refine ⟨?_, ?_⟩ <;> intro buf q hq <;> unfold Mmdvm2020.TypeRepeaterOptions.spec
  · unfold Mmdvm2020.TypeRepeaterOptions.read
    rw [a_readU4be _ _ hq, upTo, lift_ite]
    refine ite_right fun h0 => eval_textEnd rfl h0 fun _ => rfl
  · in_range

parse_layout Mmdvm2020.TypeTalkerAlias []
parse_layout Mmdvm2020.TypeUnknown []

theorem Mmdvm2020.TypeRepeaterBeacon.parses :
    Parses Mmdvm2020.TypeRepeaterBeacon.read Mmdvm2020.TypeRepeaterBeacon.spec :=
  ⟨fun _ _ _ => rfl, fun _ _ hq => .ok hq⟩

theorem Mmdvm2020.body_parses (t : PyStr) : Parses (Mmdvm2020.readCommandData t) (Mmdvm2020.bodySpec t) := by
  unfold Mmdvm2020.readCommandData Mmdvm2020.bodySpec
  refine .ite Iff.rfl (Mmdvm2020.TypeRepeaterLoginRequest.parses.map _) ?_
  refine .ite Iff.rfl (Mmdvm2020.TypeRadioPosition.parses.map _) ?_
  refine .ite Iff.rfl (Mmdvm2020.TypeMasterRepeaterAck.parses.map _) ?_
  refine .ite Iff.rfl (Mmdvm2020.TypeRepeaterLoginResponse.parses.map _) ?_
  refine .ite Iff.rfl (Mmdvm2020.TypeRepeaterConfigurationOrClosing.parses.map _) ?_
  refine .ite Iff.rfl (Mmdvm2020.TypeDmrData.parses.map _) ?_
  refine .ite Iff.rfl (Mmdvm2020.TypeMasterClosing.parses.map _) ?_
  refine .ite Iff.rfl (Mmdvm2020.TypeRepeaterPing.parses.map _) ?_
  refine .ite Iff.rfl (Mmdvm2020.TypeRepeaterOptions.parses.map _) ?_
  refine .ite Iff.rfl (Mmdvm2020.TypeMasterPong.parses.map _) ?_
  refine .ite Iff.rfl (Mmdvm2020.TypeRepeaterBeacon.parses.map _) ?_
  refine .ite Iff.rfl (Mmdvm2020.TypeMasterNotAccept.parses.map _) ?_
  refine .ite Iff.rfl (Mmdvm2020.TypeTalkerAlias.parses.map _) ?_
  exact .none

theorem Mmdvm2020.parses : Parses Mmdvm2020.read Mmdvm2020.spec := by
  refine ⟨?_, ?_⟩ <;> intro buf q hq <;> unfold Mmdvm2020.spec
  · refine eval_textAt rfl hq fun h t => ?_
    exact eval_next (Mmdvm2020.body_parses t) h fun _ _ _ => rfl
  · in_range

end Homebrew
end Dmr
