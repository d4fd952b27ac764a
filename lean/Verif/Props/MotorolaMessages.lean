import Verif.Props.MotorolaNumbers
import Verif.Props.Dispatch
import Verif.TextProofs
/-
Properties C37 (binary XML), C38 (automatic registration) and C39 (text messages) of the Motorola protocols.
-/

namespace Dmr.Motorola
open Dmr.Spec

set_option linter.unusedSimpArgs false

/-! ### Bytes at an offset -/

theorem drop_lt {b : Bytes} {q : Nat} {x : UInt8} {r : Bytes} (h : b.drop q = x :: r) : q < b.length := by
  have := congrArg List.length h
  rw [List.length_drop, List.length_cons] at this
  omega

theorem u8_drop {b : Bytes} {q : Nat} {x : UInt8} {r : Bytes} (h : b.drop q = x :: r) : u8 b q = x.toNat := by
  have hq := drop_lt h
  rw [List.drop_eq_getElem_cons hq] at h
  rw [u8, ← (List.cons.inj h).1]
  simp [List.getElem?_eq_getElem hq]

theorem drop_drop_cons {b : Bytes} {q : Nat} {x : UInt8} {r : Bytes} (h : b.drop q = x :: r) : b.drop (q + 1) = r := by
  rw [← List.drop_drop, h]; rfl

theorem drop_drop_append {b : Bytes} {q : Nat} {d r : Bytes} (h : b.drop q = d ++ r) : b.drop (q + d.length) = r := by
  rw [← List.drop_drop, h, List.drop_left]

theorem drop_append_le {b : Bytes} {q : Nat} {d r : Bytes} (h : b.drop q = d ++ r) (hq : q ≤ b.length) : q + d.length ≤ b.length := by
  have := congrArg List.length h
  rw [List.length_drop, List.length_append] at this
  omega

theorem slice_drop {b : Bytes} {q : Nat} {d r : Bytes} (h : b.drop q = d ++ r) : slice b q d.length = d := by
  rw [slice, h, List.take_left]

theorem next_ok {b : Bytes} {a : α} {e : Nat} {k : α → Nat → Except PyErr γ} (h : e ≤ b.length) :
    next b (.ok (a, e)) k = k a e := if_pos h
theorem upTo_ok {b : Bytes} {e : Nat} {x : Except PyErr γ} (h : e ≤ b.length) : upTo b e x = x := if_pos h

/-! ### C37: binary XML -/

/-- C37: `MotorolaBinaryXml.from_bytes` decodes a single document at the start of the data. If that document ends exactly
at the end of the data it raises EOFError; otherwise it returns that document alone, whatever follows. -/
theorem C37_documents (b : Bytes) :
    fromBytes MotorolaBinaryXml.read b =
      match parseAt MotorolaBinaryXml.MbxmlDocument.read b 0 with
      | .error x => .error x
      | .ok (d, e) => if e = b.length then .error .eof else .ok ⟨[d]⟩ := by
  rw [fromBytes_parseAt, MotorolaBinaryXml.parses.parseAt b 0 (Nat.zero_le _),
    MotorolaBinaryXml.MbxmlDocument.parses.parseAt b 0 (Nat.zero_le _), MotorolaBinaryXml.spec, chain]
  rcases hx : MotorolaBinaryXml.MbxmlDocument.spec b 0 with x | ⟨d, e⟩
  · rfl
  have hr := MotorolaBinaryXml.MbxmlDocument.parses.range b 0 (Nat.zero_le _) d e hx
  have ha := MotorolaBinaryXml.MbxmlDocument.advances b 0 d e hx
  simp only
  by_cases he : e = b.length
  · have hs : ¬ (decide (e ≠ b.length) = true) := by simpa using he
    have h0 : MotorolaBinaryXml.MbxmlDocument.spec b e = .error .eof := by
      unfold MotorolaBinaryXml.MbxmlDocument.spec upTo
      rw [if_neg (by omega)]
    rw [if_neg hs, if_pos he, dif_pos ⟨ha, hr⟩, chain, h0]
    rfl
  · have hs : decide (e ≠ b.length) = true := by simpa using he
    rw [if_pos hs, if_neg he]
    rfl

/-- C37: it never returns anything but exactly one document. -/
theorem C37_one_document (b : Bytes) (x : MotorolaBinaryXml) (h : fromBytes MotorolaBinaryXml.read b = .ok x) :
    x.documents.length = 1 := by
  rw [C37_documents] at h
  split at h
  · cases h
  · split at h
    · cases h
    · cases h; rfl

theorem varBytes_fails {b : Bytes} {q : Nat} (hq : q ≤ b.length) {x : PyErr} (h : varBytes b q = .error x) : x = .eof := by
  rw [varBytes_eq b q hq] at h
  split at h
  · cases h; rfl
  · cases h

theorem element_fails {b : Bytes} {q : Nat} {x : PyErr}
    (h : MotorolaBinaryXml.LrrpElement.spec b q = .error x) : x = .eof := by
  unfold MotorolaBinaryXml.LrrpElement.spec upTo at h
  split at h
  case isFalse => cases h; rfl
  unfold next at h
  split at h
  case h_1 => split at h <;> cases h; rfl
  cases h
  rename_i hb
  unfold MotorolaBinaryXml.LrrpElement.bodySpec at hb
  split at hb
  · unfold MotorolaBinaryXml.OpaqueElementValue.spec upTo at hb
    split at hb
    · split at hb <;> cases hb; rfl
    · cases hb; rfl
  split at hb
  · unfold whole at hb; split at hb <;> cases hb; rfl
  split at hb
  · unfold MotorolaBinaryXml.ConstantDataTableReference.spec at hb
    rcases hv : varBytes b (q + 1) with y | ⟨a, e⟩
    · rw [hv] at hb; cases hb; exact varBytes_fails (by assumption) hv
    · rw [hv] at hb; cases hb
  · cases hb

/-- C37: the decoder terminates on every input, and the only exception it raises is EOFError. -/
theorem C37_only_eof (b : Bytes) (x : PyErr) (h : fromBytes MotorolaBinaryXml.read b = .error x) : x = .eof := by
  rw [C37_documents, MotorolaBinaryXml.MbxmlDocument.parses.parseAt b 0 (Nat.zero_le _)] at h
  rcases hx : MotorolaBinaryXml.MbxmlDocument.spec b 0 with y | ⟨d, e⟩
  · rw [hx] at h; cases h
    unfold MotorolaBinaryXml.MbxmlDocument.spec upTo at hx
    split at hx
    case isFalse => cases hx; rfl
    rename_i h1
    unfold next at hx
    split at hx
    case h_2 => cases hx; exact varBytes_fails h1 (by assumption)
    split at hx
    case isFalse => cases hx; rfl
    simp only at hx
    split at hx
    case h_1 => split at hx <;> cases hx; rfl
    cases hx
    rename_i ho
    unfold optPart at ho
    split at ho
    · rcases hl : MotorolaBinaryXml.LrrpElement.spec b _ with y | ⟨a, e⟩
      · rw [hl] at ho; cases ho; exact element_fails hl
      · rw [hl] at ho; cases ho
    · cases ho
  · rw [hx] at h
    simp only at h
    split at h <;> cases h; rfl

theorem varBytes_encode7 {b : Bytes} {q n : Nat} {r : Bytes} (h : b.drop q = encode7 n ++ r) :
    varBytes b q = .ok ((encode7 n).map UInt8.toNat, q + (encode7 n).length) := by
  obtain ⟨p, h1, h2, h3⟩ := encode7_split n
  have hne : encode7 n ++ r ≠ [] := by rw [h1]; simp
  have hq : q < b.length := by
    by_contra hc
    rw [List.drop_eq_nil_of_le (by omega)] at h
    exact hne h.symm
  rw [varBytes_eq b q (by omega), if_neg (by omega), h]
  have hx : (UInt8.ofNat (n % 128)).toNat < 128 := by
    rw [UInt8.toNat_ofNat', Nat.mod_eq_of_lt (by omega)]; omega
  have : upToClear (encode7 n ++ r) = encode7 n := by
    rw [h1, List.append_assoc, List.singleton_append, upToClear_append p _ r h2 hx]
  rw [this]

/-- C37: a document of any kind but the immediate request 5: identifier byte and length. The body announced by the length
is not part of the decoded document, so with any body the document comes back and without one EOFError is raised. -/
theorem C37_other_document (id : UInt8) (hid : id.toNat ≠ 5) (n : Nat) (body : Bytes) :
    fromBytes MotorolaBinaryXml.read (id :: encode7 n ++ body) =
      if body = [] then .error .eof
      else .ok ⟨[⟨resolveEnum _ id.toNat, ⟨(encode7 n).map UInt8.toNat⟩, none⟩]⟩ := by
  rw [C37_documents, MotorolaBinaryXml.MbxmlDocument.parses.parseAt _ 0 (Nat.zero_le _)]
  have hd : (id :: encode7 n ++ body).drop (0 + 1) = encode7 n ++ body := rfl
  have h0 : u8 (id :: encode7 n ++ body) 0 = id.toNat := rfl
  have hl : (id :: encode7 n ++ body).length = 1 + (encode7 n).length + body.length := by
    simp only [List.cons_append, List.length_cons, List.length_append]; omega
  have hs : MotorolaBinaryXml.MbxmlDocument.spec (id :: encode7 n ++ body) 0 =
      .ok (⟨resolveEnum _ id.toNat, ⟨(encode7 n).map UInt8.toNat⟩, none⟩, 1 + (encode7 n).length) := by
    unfold MotorolaBinaryXml.MbxmlDocument.spec
    rw [upTo_ok (by omega), varBytes_encode7 hd, next_ok (by omega), h0, optPart, if_neg hid, next_ok (by omega),
      Nat.zero_add]
    rfl
  rw [hs, hl]
  simp only
  by_cases hb : body = []
  · subst hb; rw [if_pos rfl, if_pos (by simp)]
  · have : 0 < body.length := List.length_pos_iff.mpr hb
    rw [if_neg (by omega), if_neg hb]

example : ∃ x, fromBytes MotorolaBinaryXml.read (0x0A :: encode7 300 ++ [1, 2]) = .ok x ∧ x.documents.length = 1 :=
  have h : fromBytes MotorolaBinaryXml.read (0x0A :: encode7 300 ++ [1, 2]) = .ok _ := C37_other_document 0x0A (by decide) 300 [1, 2]
  ⟨_, h, C37_one_document _ _ h⟩
example : ∃ x, fromBytes MotorolaBinaryXml.read (0x0A :: encode7 300 ++ []) = .error x ∧ x = .eof :=
  have h : fromBytes MotorolaBinaryXml.read (0x0A :: encode7 300 ++ []) = .error _ := C37_other_document 0x0A (by decide) 300 []
  ⟨_, h, C37_only_eof _ _ h⟩

/-- C37: an immediate request (document 5) with an opaque element 0x22, followed by at least one byte. -/
theorem C37_immediate_request (n : Nat) (value : Bytes) (hv : value.length < 256) (rest : Bytes) :
    fromBytes MotorolaBinaryXml.read (5 :: encode7 n ++ (0x22 :: UInt8.ofNat value.length :: value ++ rest)) =
      if rest = [] then .error .eof
      else .ok ⟨[⟨resolveEnum _ 5, ⟨(encode7 n).map UInt8.toNat⟩, some (.lrrpImmediateRequestNcdt
        ⟨⟨resolveEnum _ 0x22, some (.opaqueElementValue ⟨value.length, value⟩)⟩⟩)⟩]⟩ := by
  rw [C37_documents, MotorolaBinaryXml.MbxmlDocument.parses.parseAt _ 0 (Nat.zero_le _)]
  obtain ⟨b, hb⟩ : ∃ b : Bytes, b = 5 :: encode7 n ++ (0x22 :: UInt8.ofNat value.length :: value ++ rest) := ⟨_, rfl⟩
  rw [← hb]
  have hd : b.drop (0 + 1) = encode7 n ++ (0x22 :: UInt8.ofNat value.length :: value ++ rest) := by rw [hb]; rfl
  have hd1 : b.drop (0 + 1 + (encode7 n).length) = 0x22 :: (UInt8.ofNat value.length :: (value ++ rest)) := drop_drop_append hd
  have hd2 := drop_drop_cons hd1
  have hd3 := drop_drop_cons hd2
  have h0 : u8 b 0 = 5 := by rw [hb]; rfl
  have hl : b.length = 0 + 1 + (encode7 n).length + 1 + 1 + value.length + rest.length := by
    rw [hb]; simp only [List.cons_append, List.length_cons, List.length_append]; omega
  have hu1 : u8 b (0 + 1 + (encode7 n).length) = 0x22 := u8_drop hd1
  have hu2 : u8 b (0 + 1 + (encode7 n).length + 1) = value.length := by
    rw [u8_drop hd2, UInt8.toNat_ofNat', Nat.mod_eq_of_lt (by omega)]
  have hs : MotorolaBinaryXml.MbxmlDocument.spec b 0 =
      .ok (⟨resolveEnum _ 5, ⟨(encode7 n).map UInt8.toNat⟩, some (.lrrpImmediateRequestNcdt
        ⟨⟨resolveEnum _ 0x22, some (.opaqueElementValue ⟨value.length, value⟩)⟩⟩)⟩,
        0 + 1 + (encode7 n).length + 1 + 1 + value.length) := by
    unfold MotorolaBinaryXml.MbxmlDocument.spec
    rw [upTo_ok (by omega), varBytes_encode7 hd, next_ok (by omega), h0, optPart, if_pos rfl, MotorolaBinaryXml.LrrpElement.spec,
      upTo_ok (by omega), hu1, MotorolaBinaryXml.LrrpElement.bodySpec, if_pos rfl, MotorolaBinaryXml.OpaqueElementValue.spec,
      upTo_ok (by omega), hu2, upTo_ok (by omega), slice_drop hd3, Parsed.as]
    rw [next_ok (by omega), Parsed.as]
    rw [next_ok (by omega)]
    rfl
  rw [hs]
  simp only
  by_cases hr : rest = []
  · subst hr; rw [if_pos rfl, if_pos (by simp at hl; omega)]
  · have : 0 < rest.length := List.length_pos_iff.mpr hr
    rw [if_neg (by omega), if_neg hr]

example := C37_immediate_request 12 [1, 2, 3, 4] (by decide) [0x51, 0x62]

/-- Two complete documents: only the first one is returned. One complete document: EOFError. -/
example :
    (fromBytes MotorolaBinaryXml.read [0x0A, 0x00, 0x0A, 0x00]).map (fun x => x.documents.length) = .ok 1 ∧
    (fromBytes MotorolaBinaryXml.read [0x0A, 0x00]).map (fun x => x.documents.length) = .error .eof := by
  have h1 := C37_other_document 0x0A (by decide) 0 [0x0A, 0x00]
  have h2 := C37_other_document 0x0A (by decide) 0 []
  have e : encode7 0 = [0] := by unfold encode7 groups; rfl
  rw [e] at h1 h2
  exact ⟨by rw [show ([0x0A, 0x00, 0x0A, 0x00] : Bytes) = 0x0A :: [0] ++ [0x0A, 0x00] from rfl, h1]; rfl,
    by rw [show ([0x0A, 0x00] : Bytes) = 0x0A :: [0] ++ [] from rfl, h2]; rfl⟩

/-! ### C38: automatic registration -/

/-- A field preceded by its length in one byte. -/
def withLength (d : Bytes) : Bytes := UInt8.ofNat d.length :: d

/-- The value of a field that is absent when it is empty. -/
def present (d : Bytes) : Option Bytes := if d = [] then none else some d

theorem lengthPrefixed_eq {b : Bytes} {q : Nat} {d r : Bytes} (h : b.drop q = withLength d ++ r) (hd : d.length < 256) :
    lengthPrefixed b q = .ok ((d.length, present d), q + 1 + d.length) ∧ b.drop (q + 1 + d.length) = r := by
  unfold withLength at h
  rw [List.cons_append] at h
  have h1 := drop_drop_cons h
  have hq := drop_lt h
  have hu : u8 b q = d.length := by rw [u8_drop h, UInt8.toNat_ofNat', Nat.mod_eq_of_lt (by omega)]
  have hl := drop_append_le h1 hq
  refine ⟨?_, drop_drop_append h1⟩
  unfold lengthPrefixed present
  rw [upTo_ok (by omega), hu, upTo_ok hl, slice_drop h1]
  by_cases hz : d = []
  · subst hz; rfl
  · rw [if_neg hz, if_neg (by rw [List.length_eq_zero_iff]; exact hz)]

/-- The header byte of both protocols. -/
def headerByte (flag1 flag2 flag3 flag4 : Bool) (pdu_type : Nat) : UInt8 :=
  UInt8.ofNat (flag1.toNat * 128 + flag2.toNat * 64 + flag3.toNat * 32 + flag4.toNat * 16 + pdu_type)

theorem headerByte_toNat (f1 f2 f3 f4 : Bool) (t : Nat) (ht : t < 16) :
    (headerByte f1 f2 f3 f4 t).toNat = f1.toNat * 128 + f2.toNat * 64 + f3.toNat * 32 + f4.toNat * 16 + t := by
  unfold headerByte
  rw [UInt8.toNat_ofNat']
  apply Nat.mod_eq_of_lt
  cases f1 <;> cases f2 <;> cases f3 <;> cases f4 <;> simp <;> omega

theorem ars_header {b : Bytes} {q : Nat} {r : Bytes} {f1 f2 f3 f4 : Bool} {t : Nat} (ht : t < 16)
    (h : b.drop q = headerByte f1 f2 f3 f4 t :: r) :
    AutomaticRegistrationService.MessageHeaderBits.spec b q = ⟨f1, f2, f3, f4, t⟩ ∧ bitsAt b (8 * q + 4) 4 = t := by
  have hq := drop_lt h
  have hu := u8_drop h
  rw [headerByte_toNat f1 f2 f3 f4 t ht] at hu
  have e0 := flagAt_byte b q 0 hq (by omega)
  have e1 := flagAt_byte b q 1 hq (by omega)
  have e2 := flagAt_byte b q 2 hq (by omega)
  have e3 := flagAt_byte b q 3 hq (by omega)
  have e4 := bitsAt_byte b q 4 4 hq (by omega)
  have ht4 : bitsAt b (8 * q + 4) 4 = t := by
    rw [e4, hu]
    cases f1 <;> cases f2 <;> cases f3 <;> cases f4 <;> norm_num <;> omega
  refine ⟨?_, ht4⟩
  unfold AutomaticRegistrationService.MessageHeaderBits.spec
  rw [show 8 * q = 8 * q + 0 from rfl, e0, e1, e2, e3, ht4, hu]
  cases f1 <;> cases f2 <;> cases f3 <;> cases f4 <;> norm_num <;> omega

/-- Every byte is a header byte. -/
theorem headerByte_surj (x : UInt8) : ∃ f1 f2 f3 f4 t, t < 16 ∧ x = headerByte f1 f2 f3 f4 t := by
  refine ⟨decide (x.toNat / 128 % 2 = 1), decide (x.toNat / 64 % 2 = 1), decide (x.toNat / 32 % 2 = 1),
    decide (x.toNat / 16 % 2 = 1), x.toNat % 16, by omega, ?_⟩
  have hx : x.toNat < 256 := UInt8.toNat_lt x
  apply UInt8.toNat_inj.mp
  rw [headerByte_toNat _ _ _ _ _ (by omega)]
  have bit : ∀ n : Nat, (decide (n % 2 = 1)).toNat = n % 2 := by
    intro n
    rcases Nat.mod_two_eq_zero_or_one n with h | h <;> rw [h] <;> rfl
  rw [bit, bit, bit, bit]
  omega

/-- The 7 bit values in the second header byte, after its extension bit. -/
theorem ext_byte {b : Bytes} {q : Nat} {x : UInt8} {r : Bytes} (h : b.drop q = x :: r) :
    flagAt b (8 * q) = decide (128 ≤ x.toNat) ∧ bitsAt b (8 * q + 1) 7 = x.toNat % 128 ∧
    bitsAt b (8 * q + 1) 2 = x.toNat / 32 % 4 ∧ bitsAt b (8 * q + 3) 5 = x.toNat % 32 := by
  have hq := drop_lt h
  have hu := u8_drop h
  have hx : x.toNat < 256 := UInt8.toNat_lt x
  have e0 := flagAt_byte b q 0 hq (by omega)
  have e1 := bitsAt_byte b q 1 7 hq (by omega)
  have e2 := bitsAt_byte b q 1 2 hq (by omega)
  have e3 := bitsAt_byte b q 3 5 hq (by omega)
  rw [hu] at e0 e1 e2 e3
  norm_num at e0 e1 e2 e3
  refine ⟨?_, e1, e2, e3⟩
  rw [e0]
  apply decide_eq_decide.mpr
  omega

/-- Registration data: with the extension bit one more header byte, then the three fields. -/
def registrationBytes (ext : Option UInt8) (device user password : Bytes) : Bytes :=
  ext.toList ++ withLength device ++ withLength user ++ withLength password

/-- What the second header byte of a registration says. -/
def registrationHeader (x : UInt8) : AutomaticRegistrationService.DeviceRegistrationMessageHeader :=
  ⟨decide (128 ≤ x.toNat), resolveEnum _ (x.toNat / 32 % 4), x.toNat % 32⟩

/-- C38: a device registration decodes to its three length-prefixed fields in order, each of them present iff its length
is positive, and everything after the password is `unparsed_data`. -/
theorem C38_registration (s0 s1 : UInt8) (ackBit prio ctl : Bool) (ext : Option UInt8) (device user password rest : Bytes)
    (hd : device.length < 256) (hu : user.length < 256) (hp : password.length < 256) :
    fromBytes AutomaticRegistrationService.read
        (s0 :: s1 :: headerByte ext.isSome ackBit prio ctl 0 :: (registrationBytes ext device user password ++ rest)) =
      .ok ⟨s0.toNat + s1.toNat * 256, ⟨ext.isSome, ackBit, prio, ctl, 0⟩,
        some (.deviceRegistrationMessage ⟨ext.map registrationHeader, device.length, present device, user.length,
          present user, password.length, present password⟩), rest⟩ := by
  rw [fromBytes_parseAt, AutomaticRegistrationService.parses.parseAt _ 0 (Nat.zero_le _)]
  obtain ⟨b, hb⟩ : ∃ b : Bytes, b = s0 :: s1 :: headerByte ext.isSome ackBit prio ctl 0 ::
    (registrationBytes ext device user password ++ rest) := ⟨_, rfl⟩
  rw [← hb]
  have h2 : b.drop 2 = headerByte ext.isSome ackBit prio ctl 0 :: (registrationBytes ext device user password ++ rest) := by
    rw [hb]; rfl
  obtain ⟨hh, ht⟩ := ars_header (by omega) h2
  have h3 : b.drop 3 = registrationBytes ext device user password ++ rest := drop_drop_cons h2
  have hl := drop_lt h2
  have hs : u16le b 0 = s0.toNat + s1.toNat * 256 := by rw [hb]; rfl
  unfold AutomaticRegistrationService.spec
  rw [upTo_ok (by omega), Nat.zero_add, Nat.zero_add, Nat.zero_add, hh,
    show bitsAt b 20 4 = 0 from ht, hs, AutomaticRegistrationService.bodySpec, if_pos rfl]
  have body : AutomaticRegistrationService.DeviceRegistrationMessage.spec ⟨ext.isSome, ackBit, prio, ctl, 0⟩ b 3 =
      .ok (⟨ext.map registrationHeader, device.length, present device, user.length,
          present user, password.length, present password⟩, b.length - rest.length) ∧ b.drop (b.length - rest.length) = rest := by
    have opt : ∃ e, optPart (ext.isSome = true) (whole 1 AutomaticRegistrationService.DeviceRegistrationMessageHeader.spec b 3) 3 =
        .ok (ext.map registrationHeader, e) ∧ e ≤ b.length ∧
        b.drop e = withLength device ++ (withLength user ++ (withLength password ++ rest)) := by
      unfold registrationBytes at h3
      rcases ext with _ | x
      · exact ⟨3, rfl, by omega, by rw [h3]; simp⟩
      · simp only [Option.toList_some, List.append_assoc, List.singleton_append] at h3
        have hx := drop_lt h3
        obtain ⟨e1, e2, e3, e4⟩ := ext_byte h3
        refine ⟨3 + 1, ?_, hx, drop_drop_cons h3⟩
        rw [optPart, if_pos (show (some x).isSome = true from rfl), whole, if_pos (by omega), Parsed.as]
        unfold AutomaticRegistrationService.DeviceRegistrationMessageHeader.spec
        rw [e1, e3, e4]
        rfl
    obtain ⟨e, ho, he, h4⟩ := opt
    obtain ⟨l1, d1⟩ := lengthPrefixed_eq h4 hd
    obtain ⟨l2, d2⟩ := lengthPrefixed_eq d1 hu
    obtain ⟨l3, d3⟩ := lengthPrefixed_eq d2 hp
    have r1 : e + 1 + device.length + 1 + user.length + 1 + password.length + rest.length = b.length := by
      have := congrArg List.length h4
      simp only [List.length_drop, List.length_append, withLength, List.length_cons] at this
      omega
    constructor
    · unfold AutomaticRegistrationService.DeviceRegistrationMessage.spec
      rw [ho, next_ok he, l1, next_ok (by omega), l2, next_ok (by omega), l3, next_ok (by omega)]
      congr 2
      omega
    · rw [show b.length - rest.length = e + 1 + device.length + 1 + user.length + 1 + password.length by omega]; exact d3
  rw [body.1, Parsed.as]
  rw [next_ok (by omega), body.2]
  rfl

/-- C38: conversely, whenever a message decodes to a registration it was one of those: size, header byte, second header
byte iff the extension bit is set, the three fields and the unparsed data are all the input, in this order. -/
theorem C38_registration_accounts (b : Bytes) (x : AutomaticRegistrationService)
    (d : AutomaticRegistrationService.DeviceRegistrationMessage)
    (h : fromBytes AutomaticRegistrationService.read b = .ok x) (hd : x.pdu_content = some (.deviceRegistrationMessage d)) :
    ∃ (s0 s1 : UInt8) (f1 f2 f3 : Bool) (ext : Option UInt8),
      b = s0 :: s1 :: headerByte ext.isSome f1 f2 f3 0 ::
        (registrationBytes ext (d.device_identifier.getD []) (d.user_identifier.getD []) (d.password.getD []) ++ x.unparsed_data) ∧
      (d.device_identifier.getD []).length < 256 ∧ (d.user_identifier.getD []).length < 256 ∧ (d.password.getD []).length < 256 := by
  rw [fromBytes_parseAt, AutomaticRegistrationService.parses.parseAt b 0 (Nat.zero_le _)] at h
  obtain ⟨e, h⟩ := of_map_fst_ok h
  unfold AutomaticRegistrationService.spec at h
  obtain ⟨h3, h⟩ := of_upTo_ok h
  obtain ⟨c, e', hc, he', h⟩ := of_next_ok h
  cases h
  simp only at hd
  subst hd
  rcases b with _ | ⟨s0, _ | ⟨s1, _ | ⟨hb, r⟩⟩⟩
  · simp at h3
  · simp at h3
  · simp at h3
  obtain ⟨f1, f2, f3, f4, t, ht, rfl⟩ := headerByte_surj hb
  obtain ⟨b, hbe⟩ : ∃ b : Bytes, b = s0 :: s1 :: headerByte f1 f2 f3 f4 t :: r := ⟨_, rfl⟩
  rw [← hbe] at h3 hc he' ⊢
  have h2 : b.drop 2 = headerByte f1 f2 f3 f4 t :: r := by rw [hbe]; rfl
  obtain ⟨hh, htt⟩ := ars_header ht h2
  have h3' : b.drop 3 = r := drop_drop_cons h2
  rw [Nat.zero_add, Nat.zero_add, Nat.zero_add, hh, show bitsAt b 20 4 = t from htt,
    AutomaticRegistrationService.bodySpec] at hc
  have ht0 : t = 0 := by
    by_contra hn
    rw [if_neg hn] at hc
    split at hc
    · cases hc
    split at hc
    · cases hc
    split at hc
    · obtain ⟨_, _, hc⟩ := of_as_ok hc; cases hc
    · cases hc
  subst ht0
  rw [if_pos rfl] at hc
  obtain ⟨d', hc, hd'⟩ := of_as_ok hc
  cases hd'
  unfold AutomaticRegistrationService.DeviceRegistrationMessage.spec at hc
  obtain ⟨hx, e0, ho, he0, hc⟩ := of_next_ok hc
  obtain ⟨p1, e1, hl1, he1, hc⟩ := of_next_ok hc
  obtain ⟨p2, e2, hl2, he2, hc⟩ := of_next_ok hc
  obtain ⟨p3, e3, hl3, he3, hc⟩ := of_next_ok hc
  cases hc
  have field : ∀ (q : Nat) (p : Nat × Option Bytes) (e : Nat), lengthPrefixed b q = .ok (p, e) →
      b.drop q = withLength (p.2.getD []) ++ b.drop e ∧ (p.2.getD []).length < 256 := by
    intro q p e hp
    unfold lengthPrefixed at hp
    obtain ⟨ha, hp⟩ := of_upTo_ok hp
    obtain ⟨hb, hp⟩ := of_upTo_ok hp
    cases hp
    have hs : (if u8 b q = 0 then none else some (slice b (q + 1) (u8 b q)) : Option Bytes).getD [] = slice b (q + 1) (u8 b q) := by
      split
      · rename_i h0; rw [h0]; simp [slice]
      · rfl
    simp only
    rw [hs, withLength]
    have hlen : (slice b (q + 1) (u8 b q)).length = u8 b q := by
      unfold slice; rw [List.length_take, List.length_drop]; omega
    have hu : UInt8.ofNat (u8 b q) = b[q] := by
      unfold u8
      rw [UInt8.ofNat_toNat]
      simp [List.getElem?_eq_getElem (show q < b.length by omega)]
    have hlt : u8 b q < 256 := UInt8.toNat_lt _
    refine ⟨?_, by rw [hlen]; exact hlt⟩
    rw [hlen, hu, List.drop_eq_getElem_cons (show q < b.length by omega), List.cons_append, slice]
    congr 1
    rw [← List.drop_drop (i := u8 b q) (j := q + 1), List.take_append_drop]
  obtain ⟨f1', g1⟩ := field _ _ _ hl1
  obtain ⟨f2', g2⟩ := field _ _ _ hl2
  obtain ⟨f3', g3⟩ := field _ _ _ hl3
  simp only
  refine ⟨s0, s1, f2, f3, f4, if f1 then some (b.getD 3 0) else none, ?_, g1, g2, g3⟩
  have hsome : (if f1 then some (b.getD 3 0) else none : Option UInt8).isSome = f1 := by cases f1 <;> rfl
  rw [hsome]
  have hr : r = registrationBytes (if f1 then some (b.getD 3 0) else none) (p1.2.getD []) (p2.2.getD []) (p3.2.getD []) ++ b.drop e' := by
    unfold registrationBytes
    rw [List.append_assoc, List.append_assoc, List.append_assoc, ← f3', ← f2', ← f1', ← h3']
    cases f1
    · unfold optPart at ho
      rw [if_neg Bool.false_ne_true] at ho
      cases ho
      rfl
    · unfold optPart at ho
      rw [if_pos rfl] at ho
      obtain ⟨_, ho, _⟩ := of_as_ok ho
      obtain ⟨_, ho, hl⟩ := of_whole_ok ho
      subst ho
      rw [List.drop_eq_getElem_cons (show 3 < b.length by omega)]
      simp [List.getElem?_eq_getElem (show 3 < b.length by omega)]
  rw [← hr]
  exact hbe

example := C38_registration_accounts [7, 0, 0, 1, 0x31, 0, 2, 0x61, 0x62, 0xFF] _ _ rfl rfl

/-- C38: all the other messages. An acknowledgement has one more byte iff the extension bit is set: a refresh time if the
acknowledgement bit is set and a failure reason otherwise; deregistrations, queries and unknown types have no content. What
follows is `unparsed_data`. -/
theorem C38_other (s0 s1 : UInt8) (f1 f2 f3 f4 : Bool) (t : Nat) (ht : t < 16) (h0 : t ≠ 0) (r : Bytes) :
    fromBytes AutomaticRegistrationService.read (s0 :: s1 :: headerByte f1 f2 f3 f4 t :: r) =
      let result content rest : Except PyErr AutomaticRegistrationService :=
        .ok ⟨s0.toNat + s1.toNat * 256, ⟨f1, f2, f3, f4, t⟩, content, rest⟩
      if t = 1 then result (some (.deviceDeregistrationMessage {})) r
      else if t = 4 then result (some (.arsQueryMessage {})) r
      else if t = 15 then
        if f1 then
          match r with
          | [] => .error .eof
          | x :: r' =>
            if f2 then result (some (.acknowledgementMessage ⟨some ⟨decide (128 ≤ x.toNat), x.toNat % 128⟩, none⟩)) r'
            else result (some (.acknowledgementMessage ⟨none, some ⟨decide (128 ≤ x.toNat), resolveEnum _ (x.toNat % 128)⟩⟩)) r'
        else result (some (.acknowledgementMessage ⟨none, none⟩)) r
      else result none r := by
  rw [fromBytes_parseAt, AutomaticRegistrationService.parses.parseAt _ 0 (Nat.zero_le _)]
  obtain ⟨b, hb⟩ : ∃ b : Bytes, b = s0 :: s1 :: headerByte f1 f2 f3 f4 t :: r := ⟨_, rfl⟩
  rw [← hb]
  have h2 : b.drop 2 = headerByte f1 f2 f3 f4 t :: r := by rw [hb]; rfl
  obtain ⟨hh, htt⟩ := ars_header ht h2
  have h3 : b.drop 3 = r := drop_drop_cons h2
  have hl := drop_lt h2
  have hs : u16le b 0 = s0.toNat + s1.toNat * 256 := by rw [hb]; rfl
  unfold AutomaticRegistrationService.spec
  rw [upTo_ok (by omega), Nat.zero_add, Nat.zero_add, Nat.zero_add, hh,
    show bitsAt b 20 4 = t from htt, hs, AutomaticRegistrationService.bodySpec, if_neg h0]
  simp only []
  by_cases c1 : t = 1
  · rw [if_pos c1, if_pos c1, next_ok (by omega), h3]; rfl
  rw [if_neg c1, if_neg c1]
  by_cases c4 : t = 4
  · rw [if_pos c4, if_pos c4, next_ok (by omega), h3]; rfl
  rw [if_neg c4, if_neg c4]
  by_cases c15 : t = 15
  · rw [if_pos c15, if_pos c15, AutomaticRegistrationService.AcknowledgementMessage.spec]
    cases f1
    · rw [if_neg Bool.false_ne_true, if_neg Bool.false_ne_true, Parsed.as]
      rw [next_ok (by omega), h3]
      rfl
    · rw [if_pos rfl, if_pos rfl]
      rcases r with _ | ⟨x, r'⟩
      · have hn : ¬ (3 + 1 ≤ b.length) := by rw [hb]; simp
        unfold whole
        simp only [if_neg hn]
        cases f2 <;> rfl
      · have hx := drop_lt h3
        obtain ⟨e1, e2, e3, e4⟩ := ext_byte h3
        have h4 := drop_drop_cons h3
        have hp : 3 + 1 ≤ b.length := hx
        unfold whole
        simp only [if_pos hp]
        unfold AutomaticRegistrationService.DeviceRegistrationAcknowledgementHeader.spec
          AutomaticRegistrationService.DeviceRegistrationAcknowledgementFailureReason.spec
        rw [e1, e2]
        cases f2
        · rw [if_neg Bool.false_ne_true, if_neg Bool.false_ne_true]
          simp only [Parsed.as]
          rw [next_ok hp, h4]
          rfl
        · rw [if_pos rfl, if_pos rfl]
          simp only [Parsed.as]
          rw [next_ok hp, h4]
          rfl
  · rw [if_neg c15, if_neg c15, next_ok (by omega), h3]; rfl

example := C38_other 0 4 true false true false 15 (by decide) (by decide) [0x81, 7]

/-- C38: shorter inputs raise EOFError. -/
theorem C38_short (b : Bytes) (h : b.length < 3) : fromBytes AutomaticRegistrationService.read b = .error .eof := by
  rw [fromBytes_parseAt, AutomaticRegistrationService.parses.parseAt _ 0 (Nat.zero_le _), AutomaticRegistrationService.spec, upTo,
    if_neg (by omega)]
  rfl

example := C38_short [0, 4] (by decide)

/-- A registration of device "1" with an empty user and password "ab", followed by one byte. -/
example : (fromBytes AutomaticRegistrationService.read [7, 0, 0, 1, 0x31, 0, 2, 0x61, 0x62, 0xFF]).map
    (fun x => (x.pdu_content, x.unparsed_data)) =
    .ok (some (.deviceRegistrationMessage ⟨none, 1, some [0x31], 0, none, 2, some [0x61, 0x62]⟩), [0xFF]) := by
  have := C38_registration 7 0 false false false none [0x31] [] [0x61, 0x62] [0xFF] (by decide) (by decide) (by decide)
  rw [show ([7, 0, 0, 1, 0x31, 0, 2, 0x61, 0x62, 0xFF] : Bytes) = 7 :: 0 :: headerByte (none : Option UInt8).isSome false false false 0 ::
    (registrationBytes none [0x31] [] [0x61, 0x62] ++ [0xFF]) from by decide, this]
  rfl

/-! ### C39: text messages -/

/-- A Motorola text message protocol datagram: big-endian size, header byte, address with its length, body. -/
def tmsBytes (s0 s1 : UInt8) (ext ack reserved control : Bool) (pdu_type : Nat) (address body : Bytes) : Bytes :=
  s0 :: s1 :: headerByte ext ack reserved control pdu_type :: (withLength address ++ body)

theorem tms_header {b : Bytes} {q : Nat} {r : Bytes} {f1 f2 f3 f4 : Bool} {t : Nat} (ht : t < 16)
    (h : b.drop q = headerByte f1 f2 f3 f4 t :: r) :
    TextMessageProtocol.MessageHeaderBits.spec b q = ⟨f1, f2, f3, f4, t⟩ ∧ bitsAt b (8 * q + 4) 4 = t ∧
    flagAt b (8 * q + 1) = f2 ∧ flagAt b (8 * q + 3) = f4 := by
  obtain ⟨h1, h2⟩ := ars_header ht h
  unfold AutomaticRegistrationService.MessageHeaderBits.spec at h1
  injection h1 with e1 e2 e3 e4 e5
  unfold TextMessageProtocol.MessageHeaderBits.spec
  rw [e1, e2, e3, e4, e5]
  exact ⟨rfl, rfl, rfl, rfl⟩

/-- Size, header, address and the place of the body. -/
theorem tms_split (s0 s1 : UInt8) (f1 f2 f3 f4 : Bool) (t : Nat) (ht : t < 16) (address body : Bytes) (ha : address.length < 256) :
    fromBytes TextMessageProtocol.read (tmsBytes s0 s1 f1 f2 f3 f4 t address body) =
      (next (tmsBytes s0 s1 f1 f2 f3 f4 t address body)
        (TextMessageProtocol.bodySpec f2 f4 t ⟨f1, f2, f3, f4, t⟩ (tmsBytes s0 s1 f1 f2 f3 f4 t address body)
          (4 + address.length)) fun c e =>
        .ok ⟨s0.toNat * 256 + s1.toNat, ⟨f1, f2, f3, f4, t⟩, address.length, present address, c,
          (tmsBytes s0 s1 f1 f2 f3 f4 t address body).drop e⟩) ∧
    (tmsBytes s0 s1 f1 f2 f3 f4 t address body).drop (4 + address.length) = body ∧
    4 + address.length ≤ (tmsBytes s0 s1 f1 f2 f3 f4 t address body).length := by
  obtain ⟨b, hb⟩ : ∃ b : Bytes, b = tmsBytes s0 s1 f1 f2 f3 f4 t address body := ⟨_, rfl⟩
  rw [← hb]
  have h2 : b.drop 2 = headerByte f1 f2 f3 f4 t :: (withLength address ++ body) := by rw [hb]; rfl
  obtain ⟨hh, ht4, hf1, hf3⟩ := tms_header ht h2
  have h3 : b.drop 3 = withLength address ++ body := drop_drop_cons h2
  obtain ⟨hl, hd⟩ := lengthPrefixed_eq h3 ha
  have h4 : b.length = 3 + 1 + address.length + body.length := by
    rw [hb]; simp [tmsBytes, withLength]; omega
  have hs : u16be b 0 = s0.toNat * 256 + s1.toNat := by rw [hb]; rfl
  refine ⟨?_, by rw [show 4 + address.length = 3 + 1 + address.length by omega]; exact hd, by omega⟩
  rw [fromBytes_parseAt, TextMessageProtocol.parses.parseAt _ 0 (Nat.zero_le _)]
  unfold TextMessageProtocol.spec
  rw [upTo_ok (by omega)]
  simp only [Nat.zero_add, Nat.mul_zero]
  rw [hl, next_ok (by omega), hh, show bitsAt b 20 4 = t from ht4, show flagAt b 17 = f2 from hf1, show flagAt b 19 = f4 from hf3, hs,
    show 3 + 1 + address.length = 4 + address.length by omega]
  rcases TextMessageProtocol.bodySpec f2 f4 t ⟨f1, f2, f3, f4, t⟩ b (4 + address.length) with _ | ⟨c, e⟩
  · rfl
  · unfold next
    simp only
    split <;> rfl

theorem bodySpec_text (f2 : Bool) (h : TextMessageProtocol.MessageHeaderBits) (b : Bytes) (q : Nat) :
    TextMessageProtocol.bodySpec f2 false 0 h b q = (TextMessageProtocol.TextMessage.spec h b q).as fun x => some (.textMessage x) := by
  unfold TextMessageProtocol.bodySpec
  rw [if_neg (by simp), if_neg (by simp), if_pos (by simp)]

theorem decode_none {b : Bytes} (h : ∀ t, encUtf16le t ≠ b) : decodeUtf16le b = none := by
  rcases hd : decodeUtf16le b with _ | t
  · rfl
  · exact absurd ((decodeUtf16le_iff b t).mp hd) (h t)

/-- C39: with the control bit and the PDU type clear the message is a text; without extension bit the text is the whole
rest of the datagram, as UTF-16LE, and nothing is left over. -/
theorem C39_text_plain (s0 s1 : UInt8) (ack reserved : Bool) (address : Bytes) (ha : address.length < 256) (text : PyStr) :
    fromBytes TextMessageProtocol.read (tmsBytes s0 s1 false ack reserved false 0 address (encUtf16le text)) =
      .ok ⟨s0.toNat * 256 + s1.toNat, ⟨false, ack, reserved, false, 0⟩, address.length, present address,
        some (.textMessage ⟨none, text⟩), []⟩ := by
  obtain ⟨h, hd, hl⟩ := tms_split s0 s1 false ack reserved false 0 (by omega) address (encUtf16le text) ha
  rw [h, bodySpec_text, TextMessageProtocol.TextMessage.spec, if_neg Bool.false_ne_true, hd, (decodeUtf16le_iff _ _).mpr rfl]
  simp only [decoded, Parsed.as, next, Nat.le_refl, if_true, List.drop_length]

example := C39_text_plain 0 10 true false [1, 2, 3] (by decide) ['H', 'é', '😀']

/-- What the header in front of the text says. The second byte is always taken; it only has its own extension bit and 2 bits of
sequence number if the first byte has its top bit set. -/
def textHeader (x y : UInt8) : TextMessageProtocol.TextMessageHeaderSequenceAndEncoding :=
  if 128 ≤ x.toNat then ⟨true, x.toNat / 32 % 4, x.toNat % 32, some (decide (128 ≤ y.toNat)), some (y.toNat / 32 % 4), y.toNat % 32⟩
  else ⟨false, x.toNat / 32 % 4, x.toNat % 32, none, none, y.toNat / 8⟩

/-- C39: with the extension bit two bytes are taken from the text for the header, and the rest is the text. -/
theorem C39_text_header (s0 s1 : UInt8) (ack reserved : Bool) (address : Bytes) (ha : address.length < 256) (x y : UInt8) (text : PyStr) :
    fromBytes TextMessageProtocol.read (tmsBytes s0 s1 true ack reserved false 0 address (x :: y :: encUtf16le text)) =
      .ok ⟨s0.toNat * 256 + s1.toNat, ⟨true, ack, reserved, false, 0⟩, address.length, present address,
        some (.textMessage ⟨some (textHeader x y), text⟩), []⟩ := by
  obtain ⟨h, hd, hl⟩ := tms_split s0 s1 true ack reserved false 0 (by omega) address (x :: y :: encUtf16le text) ha
  generalize tmsBytes s0 s1 true ack reserved false 0 address (x :: y :: encUtf16le text) = b at *
  generalize 4 + address.length = q at *
  have hd1 := drop_drop_cons hd
  have hd2 : b.drop (q + 2) = encUtf16le text := drop_drop_cons hd1
  have hl1 := drop_lt hd1
  obtain ⟨e0, e1, e2, e3⟩ := ext_byte hd
  obtain ⟨g0, g1, g2, g3⟩ := ext_byte hd1
  have g4 := bitsAt_byte b (q + 1) 0 5 hl1 (by omega)
  rw [u8_drop hd1] at g4
  have hy : y.toNat < 256 := UInt8.toNat_lt y
  have hspec : TextMessageProtocol.TextMessageHeaderSequenceAndEncoding.spec b q = textHeader x y := by
    unfold TextMessageProtocol.TextMessageHeaderSequenceAndEncoding.spec textHeader
    rw [e0, e2, e3, show 8 * q + 8 = 8 * (q + 1) by omega, show 8 * q + 9 = 8 * (q + 1) + 1 by omega,
      show 8 * q + 11 = 8 * (q + 1) + 3 by omega, g0, g2, g3, show 8 * (q + 1) = 8 * (q + 1) + 0 from rfl, g4]
    by_cases hx : 128 ≤ x.toNat
    · simp [hx]
    · have : y.toNat / 8 % 32 = y.toNat / 8 := by omega
      simp [hx, this]
  rw [h, bodySpec_text, TextMessageProtocol.TextMessage.spec, if_pos rfl, upTo_ok (by omega), hd2, (decodeUtf16le_iff _ _).mpr rfl, hspec]
  simp only [decoded, Parsed.as, next, Nat.le_refl, if_true, List.drop_length]

example := C39_text_header 0 10 true false [1, 2, 3] (by decide) 0x81 0x24 ['H', 'é', '😀']

/-- C39: the text must be valid: if the bytes of the text are not the UTF-16LE encoding of any text (an odd number of bytes or an
unpaired surrogate) UnicodeDecodeError is raised, and EOFError if the two header bytes are not there. -/
theorem C39_text_invalid (s0 s1 : UInt8) (ext ack reserved : Bool) (address : Bytes) (ha : address.length < 256) (body : Bytes) :
    (ext = true → body.length < 2 →
      fromBytes TextMessageProtocol.read (tmsBytes s0 s1 ext ack reserved false 0 address body) = .error .eof) ∧
    ((ext = true → 2 ≤ body.length) → (∀ text, encUtf16le text ≠ body.drop (if ext then 2 else 0)) →
      fromBytes TextMessageProtocol.read (tmsBytes s0 s1 ext ack reserved false 0 address body) = .error .unicode) := by
  obtain ⟨h, hd, hl⟩ := tms_split s0 s1 ext ack reserved false 0 (by omega) address body ha
  generalize tmsBytes s0 s1 ext ack reserved false 0 address body = b at *
  generalize 4 + address.length = q at *
  have hlen := congrArg List.length hd
  rw [List.length_drop] at hlen
  rw [h, bodySpec_text, TextMessageProtocol.TextMessage.spec]
  constructor
  · rintro rfl hs
    rw [if_pos rfl, upTo, if_neg (by omega)]
    rfl
  · intro h2 ht
    cases ext
    · rw [if_neg Bool.false_ne_true, hd, decode_none (by simpa using ht)]
      rfl
    · have h2 := h2 rfl
      have hd2 : b.drop (q + 2) = body.drop 2 := by rw [← hd, List.drop_drop]
      rw [if_pos rfl, upTo_ok (by omega), hd2, decode_none (by simpa using ht)]
      rfl

/-- The header is cut; the text is a lone surrogate. -/
example := (C39_text_invalid 0 10 true false false [] (by decide) [0x81]).1 rfl (by decide)
example := (C39_text_invalid 0 10 false false false [] (by decide) [0x3d, 0xd8]).2 (by decide)
  fun _ h => Option.some_ne_none _ ((show decodeUtf16le [0x3d, 0xd8] = none by decide).symm.trans ((decodeUtf16le_iff _ _).mpr h)).symm

/-- C39: the derived `sequence_number` of a text header: with both header bytes 16 times the upper part plus the lower one;
with a one-byte header reading it raises AttributeError. -/
theorem C39_text_sequence_number (x y : UInt8) :
    (textHeader x y).sequence_number =
      if 128 ≤ x.toNat then .ok (16 * (y.toNat / 32 % 4) + x.toNat % 32) else .error .attribute := by
  unfold TextMessageProtocol.TextMessageHeaderSequenceAndEncoding.sequence_number textHeader
  by_cases hx : 128 ≤ x.toNat
  · rw [if_pos hx, if_pos hx]
    simp only [Nat.shiftLeft_eq]
    congr 2
    omega
  · rw [if_neg hx, if_neg hx]

/-- C39: different header bytes give the same sequence number whenever the lower part is below 16 and the upper part is not
zero: raising the lower part by 16 does the same as raising the upper part by 1. -/
theorem C39_sequence_collision (x y x' y' : UInt8) (hx : 128 ≤ x.toNat) (hx' : 128 ≤ x'.toNat)
    (hl : x'.toNat % 32 = x.toNat % 32 + 16) (hm : y.toNat / 32 % 4 = y'.toNat / 32 % 4 + 1) :
    (textHeader x y).sequence_number = (textHeader x' y').sequence_number ∧ textHeader x y ≠ textHeader x' y' := by
  rw [C39_text_sequence_number, C39_text_sequence_number, if_pos hx, if_pos hx']
  refine ⟨by congr 1; omega, ?_⟩
  unfold textHeader
  rw [if_pos hx, if_pos hx']
  intro h
  injection h with _ _ h3 _ _ _
  omega

/-- Such headers exist. -/
example : (textHeader 0x81 0x24).sequence_number = (textHeader 0x91 0x04).sequence_number ∧ textHeader 0x81 0x24 ≠ textHeader 0x91 0x04 :=
  C39_sequence_collision 0x81 0x24 0x91 0x04 (by decide) (by decide) (by decide) (by decide)

/-- What the acknowledgement header says when its second byte is there. -/
def ackHeader (x : UInt8) (y : Option UInt8) : TextMessageProtocol.TmsAcknowledgementHeaderSequenceNumber :=
  ⟨decide (128 ≤ x.toNat), x.toNat / 32 % 4, x.toNat % 32, y.map fun y => decide (128 ≤ y.toNat), y.map fun y => y.toNat / 32 % 4,
    y.map fun y => y.toNat % 32⟩

/-- C39: with the control bit set, no acknowledgement bit and PDU type 15 the message is an acknowledgement: one header byte
iff the extension bit is set, and a second one iff the top bit of the first is set. -/
theorem C39_acknowledgement (s0 s1 : UInt8) (ext reserved : Bool) (address : Bytes) (ha : address.length < 256) (body : Bytes) :
    fromBytes TextMessageProtocol.read (tmsBytes s0 s1 ext false reserved true 15 address body) =
      let result header rest : Except PyErr TextMessageProtocol :=
        .ok ⟨s0.toNat * 256 + s1.toNat, ⟨ext, false, reserved, true, 15⟩, address.length, present address,
          some (.tmsAcknowledgement ⟨header⟩), rest⟩
      match ext, body with
      | false, _ => result none body
      | true, [] => .error .eof
      | true, x :: r =>
        if 128 ≤ x.toNat then
          match r with
          | [] => .error .eof
          | y :: r' => result (some (ackHeader x (some y))) r'
        else result (some (ackHeader x none)) r := by
  obtain ⟨h, hd, hl⟩ := tms_split s0 s1 ext false reserved true 15 (by omega) address body ha
  generalize tmsBytes s0 s1 ext false reserved true 15 address body = b at *
  have hb : ∀ hdr q, TextMessageProtocol.bodySpec false true 15 hdr b q =
      (TextMessageProtocol.TmsAcknowledgement.spec hdr b q).as fun x => some (.tmsAcknowledgement x) := by
    intro hdr q
    unfold TextMessageProtocol.bodySpec
    rw [if_neg (by simp), if_pos (by simp)]
  rw [h, hb, TextMessageProtocol.TmsAcknowledgement.spec, optPart]
  generalize 4 + address.length = q at *
  have hlen := congrArg List.length hd
  rw [List.length_drop] at hlen
  cases ext
  · rw [if_neg Bool.false_ne_true, Parsed.as, Parsed.as, next_ok hl, hd]
  · rw [if_pos rfl, TextMessageProtocol.TmsAcknowledgementHeaderSequenceNumber.spec]
    rcases body with _ | ⟨x, r⟩
    · have hn : ¬ (q + 1 ≤ b.length) := by simp at hlen; omega
      rw [upTo, if_neg hn]
      rfl
    have hq := drop_lt hd
    obtain ⟨e0, e1, e2, e3⟩ := ext_byte hd
    have hd1 := drop_drop_cons hd
    rw [upTo_ok (by omega), e0, e2, e3]
    simp only [decide_eq_true_eq]
    by_cases hx : 128 ≤ x.toNat
    · rw [if_pos hx, if_pos hx]
      rcases r with _ | ⟨y, r'⟩
      · have hn : ¬ (q + 2 ≤ b.length) := by simp at hlen; omega
        rw [upTo, if_neg hn]
        rfl
      have hq1 := drop_lt hd1
      have hd2 := drop_drop_cons hd1
      obtain ⟨g0, g1, g2, g3⟩ := ext_byte hd1
      rw [upTo_ok (by omega), show 8 * q + 8 = 8 * (q + 1) by omega, show 8 * q + 9 = 8 * (q + 1) + 1 by omega,
        show 8 * q + 11 = 8 * (q + 1) + 3 by omega, g0, g2, g3, Parsed.as, Parsed.as, Parsed.as, next_ok (by omega),
        show q + 2 = q + 1 + 1 from rfl, hd2]
      simp only [ackHeader, decide_eq_true hx, Option.map_some]
    · rw [if_neg hx, if_neg hx, Parsed.as, Parsed.as, Parsed.as, next_ok (by omega), hd1]
      simp only [ackHeader, decide_eq_false hx, Option.map_none]

example := C39_acknowledgement 0 10 true false [1, 2, 3] (by decide) [0x81, 0x20]

/-- C39: the same sequence number rule for acknowledgements. -/
theorem C39_ack_sequence_number (x : UInt8) (y : Option UInt8) :
    (ackHeader x y).sequence_number =
      match y with
      | some y => .ok (16 * (y.toNat / 32 % 4) + x.toNat % 32)
      | none => .error .attribute := by
  unfold TextMessageProtocol.TmsAcknowledgementHeaderSequenceNumber.sequence_number ackHeader
  rcases y with _ | y
  · rfl
  · simp only [Nat.shiftLeft_eq, Option.map_some]
    congr 2
    omega

/-- C39: with the control bit, the acknowledgement bit and PDU type 0 it is a service availability message, with one header byte
iff the extension bit is set. -/
theorem C39_availability (s0 s1 : UInt8) (ext reserved : Bool) (address : Bytes) (ha : address.length < 256) (body : Bytes) :
    fromBytes TextMessageProtocol.read (tmsBytes s0 s1 ext true reserved true 0 address body) =
      let result header rest : Except PyErr TextMessageProtocol :=
        .ok ⟨s0.toNat * 256 + s1.toNat, ⟨ext, true, reserved, true, 0⟩, address.length, present address,
          some (.tmsServiceAvailability ⟨header⟩), rest⟩
      match ext, body with
      | false, _ => result none body
      | true, [] => .error .eof
      | true, x :: r => result (some ⟨decide (128 ≤ x.toNat), x.toNat / 8 % 16, resolveEnum _ (x.toNat % 8)⟩) r := by
  obtain ⟨h, hd, hl⟩ := tms_split s0 s1 ext true reserved true 0 (by omega) address body ha
  generalize tmsBytes s0 s1 ext true reserved true 0 address body = b at *
  have hb : ∀ hdr q, TextMessageProtocol.bodySpec true true 0 hdr b q =
      (TextMessageProtocol.TmsServiceAvailability.spec hdr b q).as fun x => some (.tmsServiceAvailability x) := by
    intro hdr q
    unfold TextMessageProtocol.bodySpec
    rw [if_pos (by simp)]
  rw [h, hb, TextMessageProtocol.TmsServiceAvailability.spec, optPart]
  generalize 4 + address.length = q at *
  have hlen := congrArg List.length hd
  rw [List.length_drop] at hlen
  cases ext
  · rw [if_neg Bool.false_ne_true, Parsed.as, Parsed.as, next_ok hl, hd]
  · rw [if_pos rfl, whole]
    rcases body with _ | ⟨x, r⟩
    · have hn : ¬ (q + 1 ≤ b.length) := by simp at hlen; omega
      rw [if_neg hn]
      rfl
    have hq := drop_lt hd
    have hu := u8_drop hd
    obtain ⟨e0, -, -, -⟩ := ext_byte hd
    have g1 := bitsAt_byte b q 1 4 hq (by omega)
    have g2 := bitsAt_byte b q 5 3 hq (by omega)
    rw [hu] at g1 g2
    norm_num at g1 g2
    rw [if_pos (by omega), TextMessageProtocol.TmsServiceAvailabilityHeader.spec, e0, g1, g2, Parsed.as, Parsed.as, Parsed.as,
      next_ok (by omega), drop_drop_cons hd]

example := C39_availability 0 10 true false [1, 2, 3] (by decide) [0x81, 0x20]

/-- C39: every other combination of the acknowledgement bit, control bit and PDU type has no content; all is `unparsed_data`. -/
theorem C39_other (s0 s1 : UInt8) (ext ack reserved control : Bool) (t : Nat) (ht : t < 16) (address : Bytes)
    (ha : address.length < 256) (body : Bytes)
    (h1 : ¬ (control = false ∧ t = 0)) (h2 : ¬ (control = true ∧ ack = false ∧ t = 15)) (h3 : ¬ (control = true ∧ ack = true ∧ t = 0)) :
    fromBytes TextMessageProtocol.read (tmsBytes s0 s1 ext ack reserved control t address body) =
      .ok ⟨s0.toNat * 256 + s1.toNat, ⟨ext, ack, reserved, control, t⟩, address.length, present address, none, body⟩ := by
  obtain ⟨h, hd, hl⟩ := tms_split s0 s1 ext ack reserved control t ht address body ha
  rw [h, TextMessageProtocol.bodySpec, if_neg (by rintro ⟨a, b, c⟩; exact h3 ⟨b, a, c⟩),
    if_neg (by rintro ⟨a, b, c⟩; exact h2 ⟨b, by simpa using a, c⟩),
    if_neg (by rintro ⟨a, b⟩; exact h1 ⟨by simpa using a, b⟩), next_ok hl, hd]

example := C39_other 0 10 true false false true 7 (by decide) [1, 2, 3] (by decide) [0x81, 0x20] (by decide) (by decide) (by decide)

/-- C39: data that do not even hold the size, header and address raise EOFError; so every datagram is covered. -/
theorem C39_short (b : Bytes) :
    (∃ s0 s1 f1 f2 f3 f4 t address body, t < 16 ∧ address.length < 256 ∧ b = tmsBytes s0 s1 f1 f2 f3 f4 t address body) ∨
    fromBytes TextMessageProtocol.read b = .error .eof := by
  by_cases h : 4 ≤ b.length ∧ 4 + u8 b 3 ≤ b.length
  · left
    obtain ⟨h4, h5⟩ := h
    rcases b with _ | ⟨s0, _ | ⟨s1, _ | ⟨hb, _ | ⟨n, r⟩⟩⟩⟩
    · simp at h4
    · simp at h4
    · simp at h4
    · simp at h4
    obtain ⟨f1, f2, f3, f4, t, ht, rfl⟩ := headerByte_surj hb
    have hn : n.toNat ≤ r.length := by
      have : u8 (s0 :: s1 :: headerByte f1 f2 f3 f4 t :: n :: r) 3 = n.toNat := rfl
      rw [this] at h5
      simp at h5
      omega
    refine ⟨s0, s1, f1, f2, f3, f4, t, r.take n.toNat, r.drop n.toNat, ht, ?_, ?_⟩
    · rw [List.length_take]; have := UInt8.toNat_lt n; omega
    · unfold tmsBytes withLength
      rw [List.length_take, Nat.min_eq_left hn, UInt8.ofNat_toNat, List.cons_append, List.take_append_drop]
  · right
    rw [fromBytes_parseAt, TextMessageProtocol.parses.parseAt _ 0 (Nat.zero_le _), TextMessageProtocol.spec]
    by_cases h3 : 0 + 3 ≤ b.length
    · rw [upTo_ok h3, lengthPrefixed]
      by_cases h4 : 0 + 3 + 1 ≤ b.length
      · have h5 : ¬ (0 + 3 + 1 + u8 b (0 + 3) ≤ b.length) := by
          rw [Nat.zero_add] at *; omega
        rw [upTo_ok h4, upTo, if_neg h5]; rfl
      · rw [upTo, if_neg h4]; rfl
    · rw [upTo, if_neg h3]; rfl

/-- The text "Hi" with both header bytes. -/
example : tmsBytes 0 10 true true false false 0 [] [0x81, 0x04, 0x48, 0, 0x69, 0] = [0, 10, 0xC0, 0, 0x81, 0x04, 0x48, 0, 0x69, 0] ∧
    encUtf16le ['H', 'i'] = [0x48, 0, 0x69, 0] := by decide

end Dmr.Motorola
