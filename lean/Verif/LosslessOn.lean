import Verif.LosslessAll
/-
`LosslessOn P i r r' j`: like `Lossless i r r' j`, for results that satisfy `P`. Used for the two decoders that drop bits of
some messages: full link control (three bits after the 5 bit checksum) and the Motorola text message header (three bits when the
encoding header is absent).
-/

set_option linter.unusedVariables false

namespace Dmr

/-- See the head of this file. -/
def LosslessOn (P : α → Prop) (i : Nat) (r r' : Rd α) (j : Nat) : Prop :=
  ∀ (b b' : Bytes) (p p' : Nat) (x : α) (s s' : Stream), P x → p ≤ 8 * b.length → p' ≤ 8 * b'.length → p % 8 = i →
    p' % 8 = i → Rd.eval r (Stream.at b p) = .ok (x, s) → Rd.eval r' (Stream.at b' p') = .ok (x, s') →
    ∃ n, p + n ≤ 8 * b.length ∧ p' + n ≤ 8 * b'.length ∧ s = Stream.at b (p + n) ∧ s' = Stream.at b' (p' + n) ∧
      (p + n) % 8 = j ∧ bitsAt b p n = bitsAt b' p' n

namespace LosslessOn

theorem of {P : α → Prop} {i j : Nat} {r r' : Rd α} (h : Lossless i r r' j) : LosslessOn P i r r' j :=
  fun b b' p p' x s s' _ => h b b' p p' x s s'

theorem none {P : α → Prop} {i j : Nat} {r r' : Rd α} (h : ∀ x, ¬ P x) : LosslessOn P i r r' j :=
  fun b b' p p' x s s' hx => absurd hx (h x)

theorem bind {P : β → Prop} {Q : α → Prop} {i j m : Nat} {r r' : Rd α} {k k' : α → Rd β} (proj : β → α)
    (hQ : ∀ x, P x → Q (proj x)) (hr : LosslessOn Q i r r' m)
    (hk : ∀ a, Q a → LosslessOn P m (k a) (k' a) j) (h1 : ∀ a, Returns (k a) fun x => proj x = a)
    (h2 : ∀ a, Returns (k' a) fun x => proj x = a) : LosslessOn P i (r >>= k) (r' >>= k') j := by
  intro b b' p p' x s s' hx hp hp' hi hi' e e'
  rw [eval_bind] at e e'
  rcases he : Rd.eval r (Stream.at b p) with _ | ⟨a, s1⟩
  · rw [he] at e; cases e
  rcases he' : Rd.eval r' (Stream.at b' p') with _ | ⟨a', s1'⟩
  · rw [he'] at e'; cases e'
  rw [he] at e
  rw [he'] at e'
  rw [andThen_ok] at e e'
  have ha1 := h1 a _ _ _ e
  have ha : a = a' := ha1.symm.trans (h2 a' _ _ _ e')
  subst ha
  have hq : Q a := ha1 ▸ hQ x hx
  obtain ⟨n, n1, n2, rfl, rfl, n5, n6⟩ := hr b b' p p' a s1 s1' hq hp hp' hi hi' he he'
  obtain ⟨l, l1, l2, rfl, rfl, l5, l6⟩ := hk a hq b b' (p + n) (p' + n) x s s' hx n1 n2 n5 (by omega) e e'
  exact ⟨n + l, by omega, by omega, by rw [Nat.add_assoc], by rw [Nat.add_assoc], by rw [← Nat.add_assoc]; exact l5,
    by rw [bitsAt_add b p n l l1, bitsAt_add b' p' n l l2, n6, l6]⟩

theorem map {P : β → Prop} {i j : Nat} {r r' : Rd α} {f : α → β} (hr : LosslessOn (fun a => P (f a)) i r r' j)
    (hf : ∀ a a', f a = f a' → a = a') :
    LosslessOn P i (r >>= fun a => (Pure.pure (f a) : Rd β)) (r' >>= fun a => (Pure.pure (f a) : Rd β)) j := by
  intro b b' p p' x s s' hx hp hp' hi hi' e e'
  rw [eval_bind] at e e'
  rcases he : Rd.eval r (Stream.at b p) with _ | ⟨a, s1⟩
  · rw [he] at e; cases e
  rcases he' : Rd.eval r' (Stream.at b' p') with _ | ⟨a', s1'⟩
  · rw [he'] at e'; cases e'
  rw [he, andThen_ok, eval_pure] at e
  rw [he', andThen_ok, eval_pure] at e'
  cases e
  injection e' with e'
  injection e' with e1 e2
  subst e2
  have := hf _ _ e1
  subst this
  exact hr b b' p p' a' s s1' hx hp hp' hi hi' he he'

theorem optNone (c c' : Bool) (r r' : Rd α) : LosslessOn (fun x : Option α => x = .none) 0 (Dmr.optionally c r) (Dmr.optionally c' r') 0 := by
  intro b b' p p' x s s' hx hp hp' hi hi' e e'
  have key : ∀ (c : Bool) (r : Rd α) (b : Bytes) (p : Nat) (s : Stream),
      Rd.eval (Dmr.optionally c r) (Stream.at b p) = .ok (.none, s) → s = Stream.at b p := by
    intro c r b p s e
    rw [eval_optionally] at e
    split at e
    · rcases he : Rd.eval r (Stream.at b p) with _ | ⟨a, s1⟩
      · rw [he] at e; cases e
      · rw [he] at e; cases e
    · cases e; rfl
  rw [hx] at e e'
  cases key c r b p s e
  cases key c' r' b' p' s' e'
  exact ⟨0, by omega, by omega, rfl, rfl, by omega, by rw [bitsAt_zero, bitsAt_zero]⟩

theorem optSome {i j : Nat} {c c' : Bool} {r r' : Rd α} (h : Lossless i r r' j) :
    LosslessOn (fun x : Option α => x ≠ .none) i (Dmr.optionally c r) (Dmr.optionally c' r') j := by
  intro b b' p p' x s s' hx hp hp' hi hi' e e'
  cases c
  · cases e; exact absurd rfl hx
  cases c'
  · cases e'; exact absurd rfl hx
  exact Lossless.optTrue h b b' p p' x s s' hp hp' hi hi' e e'

theorem ite {P : α → Prop} {c : Prop} [Decidable c] {i j : Nat} {r₁ r₂ r₁' r₂' : Rd α} (h : c → LosslessOn P i r₁ r₁' j)
    (h' : ¬ c → LosslessOn P i r₂ r₂' j) : LosslessOn P i (if c then r₁ else r₂) (if c then r₁' else r₂') j := by
  by_cases hc : c
  · rw [if_pos hc, if_pos hc]; exact h hc
  · rw [if_neg hc, if_neg hc]; exact h' hc

/-- An optional field, the same in both runs. -/
theorem optionally {P : Option α → Prop} {i : Nat} {c : Bool} {r r' : Rd α} (h : LosslessOn (fun a => P (some a)) i r r' i) :
    LosslessOn P i (Dmr.optionally c r) (Dmr.optionally c r') i := by
  cases c
  · exact of (Lossless.pure rfl)
  · exact map h fun _ _ => Option.some.inj

/-- A part that only looks at the stream. -/
theorem peek {P : β → Prop} {j : Nat} {r r' : Rd α} {k k' : α → Rd β} (h : Silent r) (h' : Silent r')
    (hk : ∀ a a', LosslessOn P 0 (k a) (k' a') j) : LosslessOn P 0 (r >>= k) (r' >>= k') j := by
  intro b b' p p' x s s' hx hp hp' hi hi' e e'
  rw [eval_bind] at e e'
  rcases he : Rd.eval r (Stream.at b p) with _ | ⟨a, s1⟩
  · rw [he] at e; cases e
  rcases he' : Rd.eval r' (Stream.at b' p') with _ | ⟨a', s1'⟩
  · rw [he'] at e'; cases e'
  rw [he] at e
  rw [he'] at e'
  rw [andThen_ok] at e e'
  obtain ⟨q, rfl⟩ : ∃ q, p = 8 * q := ⟨p / 8, by omega⟩
  obtain ⟨q', rfl⟩ : ∃ q, p' = 8 * q := ⟨p' / 8, by omega⟩
  cases h b q a s1 (by omega) he
  cases h' b' q' a' s1' (by omega) he'
  exact hk a a' b b' _ _ x s s' hx hp hp' hi hi' e e'

end LosslessOn

/-- Two decoders at places of two streams that return equal objects have consumed the same bytes. -/
theorem LosslessOn.consumed_at {P : α → Prop} {r : Rd α} (h : LosslessOn P 0 r r 0) {b b' : Bytes} {x : α} {q q' n n' : Nat}
    (hx : P x) (hq : q ≤ b.length) (hq' : q' ≤ b'.length) (e : parseAt r b q = .ok (x, n)) (e' : parseAt r b' q' = .ok (x, n')) :
    ∃ l, n = q + l ∧ n' = q' + l ∧ n ≤ b.length ∧ n' ≤ b'.length ∧ slice b q l = slice b' q' l := by
  unfold parseAt at e e'
  rw [show (Stream.mk b q 0 0) = Stream.at b (8 * q) from (Stream.at_byte b q).symm] at e
  rw [show (Stream.mk b' q' 0 0) = Stream.at b' (8 * q') from (Stream.at_byte b' q').symm] at e'
  rcases he : Rd.eval r (Stream.at b (8 * q)) with _ | ⟨a, s⟩
  · rw [he] at e; cases e
  rcases he' : Rd.eval r (Stream.at b' (8 * q')) with _ | ⟨a', s'⟩
  · rw [he'] at e'; cases e'
  rw [he] at e
  rw [he'] at e'
  cases e; cases e'
  obtain ⟨m, m1, m2, rfl, rfl, m5, m6⟩ := h b b' (8 * q) (8 * q') _ s s' hx (by omega) (by omega) (by omega) (by omega) he he'
  obtain ⟨l, rfl⟩ : ∃ l, m = 8 * l := ⟨m / 8, by omega⟩
  rw [← Nat.mul_add, ← Nat.mul_add, Stream.at_byte, Stream.at_byte]
  refine ⟨l, rfl, rfl, by show q + l ≤ _; omega, by show q' + l ≤ _; omega, ?_⟩
  rw [← beVal_slice b q l (by omega), ← beVal_slice b' q' l (by omega)] at m6
  exact beVal_inj (by rw [length_slice _ _ _ (by omega), length_slice _ _ _ (by omega)]) m6

/-- From the beginning of two messages. -/
theorem LosslessOn.consumed {P : α → Prop} {r : Rd α} (h : LosslessOn P 0 r r 0) {b b' : Bytes} {x : α} {n n' : Nat} (hx : P x)
    (e : parseAt r b 0 = .ok (x, n)) (e' : parseAt r b' 0 = .ok (x, n')) :
    n = n' ∧ n ≤ b.length ∧ n ≤ b'.length ∧ b.take n = b'.take n' := by
  obtain ⟨l, rfl, rfl, h1, h2, h3⟩ := h.consumed_at hx (Nat.zero_le _) (Nat.zero_le _) e e'
  exact ⟨rfl, h1, h2, by simpa [slice] using h3⟩

/-- The same for a decoder that stops inside a byte, after `j` bits of it: equal up to there. -/
theorem LosslessOn.consumed_bits {P : α → Prop} {r : Rd α} {j : Nat} (hj : j ≠ 0) (h : LosslessOn P 0 r r j) {b b' : Bytes}
    {x : α} {n n' : Nat} (hx : P x) (e : parseAt r b 0 = .ok (x, n)) (e' : parseAt r b' 0 = .ok (x, n')) :
    n = n' ∧ n ≤ b.length ∧ n ≤ b'.length ∧ ∃ m, n = m + 1 ∧ b.take m = b'.take m ∧ bitsAt b (8 * m) j = bitsAt b' (8 * m) j := by
  unfold parseAt at e e'
  rw [show (Stream.mk b 0 0 0) = Stream.at b (8 * 0) from (Stream.at_byte b 0).symm] at e
  rw [show (Stream.mk b' 0 0 0) = Stream.at b' (8 * 0) from (Stream.at_byte b' 0).symm] at e'
  rcases he : Rd.eval r (Stream.at b (8 * 0)) with _ | ⟨a, s⟩
  · rw [he] at e; cases e
  rcases he' : Rd.eval r (Stream.at b' (8 * 0)) with _ | ⟨a', s'⟩
  · rw [he'] at e'; cases e'
  rw [he] at e
  rw [he'] at e'
  cases e; cases e'
  obtain ⟨m, m1, m2, rfl, rfl, m5, m6⟩ := h b b' (8 * 0) (8 * 0) _ s s' hx (by omega) (by omega) rfl rfl he he'
  obtain ⟨l, rfl⟩ : ∃ l, m = 8 * l + j := ⟨m / 8, by omega⟩
  have hj8 : j < 8 := by omega
  rw [bitsAt_add b _ _ _ (by omega), bitsAt_add b' _ _ _ (by omega)] at m6
  have t1 := bitsAt_lt b (8 * 0 + 8 * l) j
  have t2 := bitsAt_lt b' (8 * 0 + 8 * l) j
  rw [← beVal_slice b 0 l (by omega), ← beVal_slice b' 0 l (by omega)] at m6
  rw [show 8 * 0 + 8 * l = 8 * l by omega] at m6 t1 t2
  have hpos : 0 < 2 ^ j := Nat.two_pow_pos j
  have q1 : beVal (slice b 0 l) = beVal (slice b' 0 l) := by
    have := congrArg (· / 2 ^ j) m6
    simpa only [Nat.mul_comm _ (2 ^ j), Nat.mul_add_div hpos, Nat.div_eq_of_lt t1, Nat.div_eq_of_lt t2, Nat.add_zero] using this
  have q2 : bitsAt b (8 * l) j = bitsAt b' (8 * l) j := by rw [q1] at m6; omega
  have q3 := beVal_inj (by rw [length_slice _ _ _ (by omega), length_slice _ _ _ (by omega)]) q1
  have d : ∀ (c : Bytes), (Stream.at c (8 * 0 + (8 * l + j))).pos = l + 1 := by
    intro c; unfold Stream.at; show (8 * 0 + (8 * l + j) + 7) / 8 = l + 1; omega
  simp only [d]
  exact ⟨trivial, by omega, by omega, l, rfl, by simpa [slice] using q3, q2⟩

open Etsi in
/-- Full link control without the 5 bit checksum. -/
theorem Etsi.FullLinkControl.read_lossless_on_none :
    LosslessOn (fun x : FullLinkControl => x.cs5_checksum = none) 0 FullLinkControl.read FullLinkControl.read 0 := by
  unfold FullLinkControl.read
  refine LosslessOn.bind (m := 1) (Q := fun _ => True) (·.protect_flag) (fun _ _ => trivial) (.of (Lossless.flag' rfl)) (fun _ _ => ?_) (by returns) (by returns)
  refine LosslessOn.bind (m := 2) (Q := fun _ => True) (·.reserved) (fun _ _ => trivial) (.of (Lossless.flag' rfl)) (fun _ _ => ?_) (by returns) (by returns)
  refine LosslessOn.bind (m := 0) (Q := fun _ => True) (·.full_link_control_opcode) (fun _ _ => trivial) (.of (Lossless.asEnum (Lossless.bits' 6 rfl))) (fun _ _ => ?_) (by returns) (by returns)
  refine LosslessOn.bind (m := 0) (Q := fun _ => True) (·.feature_set_id) (fun _ _ => trivial) (.of (Lossless.asEnum (Lossless.bits' 8 rfl))) (fun _ _ => ?_) (by returns) (by returns)
  refine LosslessOn.peek Silent.align Silent.align fun _ _ => ?_
  refine LosslessOn.bind (m := 0) (Q := fun _ => True) (·.specific_data) (fun _ _ => trivial) (.of (FullLinkControl.readSpecificData_lossless _)) (fun _ _ => ?_) (by returns) (by returns)
  refine LosslessOn.peek Silent.size Silent.size fun _ _ => ?_
  refine LosslessOn.peek Silent.pos Silent.pos fun _ _ => ?_
  refine LosslessOn.bind (m := 0) (Q := fun _ => True) (·.crc_checksum) (fun _ _ => trivial) (.of (Lossless.optionally fun _ _ => Lossless.bytes _)) (fun _ _ => ?_) (by returns) (by returns)
  refine LosslessOn.peek Silent.size Silent.size fun n n' => ?_
  refine LosslessOn.bind (m := 0) (Q := fun c => c = none) (·.cs5_checksum) (fun _ h => h) (LosslessOn.optNone _ _ _ _) (fun _ _ => .of (Lossless.pure rfl)) (by returns) (by returns)

open Etsi in
/-- Full link control with the 5 bit checksum: ends after five bits of the last byte. -/
theorem Etsi.FullLinkControl.read_lossless_on_some :
    LosslessOn (fun x : FullLinkControl => x.cs5_checksum ≠ none) 0 FullLinkControl.read FullLinkControl.read 5 := by
  unfold FullLinkControl.read
  refine LosslessOn.bind (m := 1) (Q := fun _ => True) (·.protect_flag) (fun _ _ => trivial) (.of (Lossless.flag' rfl)) (fun _ _ => ?_) (by returns) (by returns)
  refine LosslessOn.bind (m := 2) (Q := fun _ => True) (·.reserved) (fun _ _ => trivial) (.of (Lossless.flag' rfl)) (fun _ _ => ?_) (by returns) (by returns)
  refine LosslessOn.bind (m := 0) (Q := fun _ => True) (·.full_link_control_opcode) (fun _ _ => trivial) (.of (Lossless.asEnum (Lossless.bits' 6 rfl))) (fun _ _ => ?_) (by returns) (by returns)
  refine LosslessOn.bind (m := 0) (Q := fun _ => True) (·.feature_set_id) (fun _ _ => trivial) (.of (Lossless.asEnum (Lossless.bits' 8 rfl))) (fun _ _ => ?_) (by returns) (by returns)
  refine LosslessOn.peek Silent.align Silent.align fun _ _ => ?_
  refine LosslessOn.bind (m := 0) (Q := fun _ => True) (·.specific_data) (fun _ _ => trivial) (.of (FullLinkControl.readSpecificData_lossless _)) (fun _ _ => ?_) (by returns) (by returns)
  refine LosslessOn.peek Silent.size Silent.size fun _ _ => ?_
  refine LosslessOn.peek Silent.pos Silent.pos fun _ _ => ?_
  refine LosslessOn.bind (m := 0) (Q := fun _ => True) (·.crc_checksum) (fun _ _ => trivial) (.of (Lossless.optionally fun _ _ => Lossless.bytes _)) (fun _ _ => ?_) (by returns) (by returns)
  refine LosslessOn.peek Silent.size Silent.size fun n n' => ?_
  refine LosslessOn.bind (m := 5) (Q := fun c => c ≠ none) (·.cs5_checksum) (fun _ h => h) (LosslessOn.optSome (Lossless.bits' 5 rfl)) (fun _ _ => .of (Lossless.pure rfl)) (by returns) (by returns)

open Motorola in
theorem Motorola.TextMessageProtocol.TextMessageHeaderSequenceAndEncoding.read_lossless_on :
    LosslessOn (fun x : TextMessageProtocol.TextMessageHeaderSequenceAndEncoding => x.has_encoding_header = true) 0
      TextMessageProtocol.TextMessageHeaderSequenceAndEncoding.read
      TextMessageProtocol.TextMessageHeaderSequenceAndEncoding.read 0 := by
  unfold TextMessageProtocol.TextMessageHeaderSequenceAndEncoding.read
  refine LosslessOn.bind (m := 1) (Q := fun c => c = true) (·.has_encoding_header) (fun _ h => h) (.of (Lossless.flag' rfl)) (fun c h => ?_) (by returns) (by returns)
  subst h
  refine .of ?_
  refine Lossless.bind (m := 3) (·.reserved_1) (Lossless.bits' 2 rfl) (fun _ => ?_) (by returns) (by returns)
  refine Lossless.bind (m := 0) (·.sequence_number_lsb_bits) (Lossless.bits' 5 rfl) (fun _ => ?_) (by returns) (by returns)
  refine Lossless.bind (m := 1) (·.header_encoding_extension) (Lossless.optTrue (Lossless.flag' rfl)) (fun _ => ?_) (by returns) (by returns)
  refine Lossless.bind (m := 3) (·.sequence_number_msb_bits) (Lossless.optTrue (Lossless.bits' 2 rfl)) (fun _ => ?_) (by returns) (by returns)
  refine Lossless.bind (m := 0) (·.encoding) (Lossless.bits' 5 rfl) (fun _ => ?_) (by returns) (by returns)
  exact Lossless.pure rfl

/-- No text message header without the encoding header. -/
def Motorola.TextMessageProtocol.TextMessage.FullHeader (x : TextMessageProtocol.TextMessage) : Prop :=
  ∀ h, x.text_message_header_sequence_and_encoding = some h → h.has_encoding_header = true

/-- No text message header without the encoding header. -/
def Motorola.TextMessageProtocol.FullHeader (x : TextMessageProtocol) : Prop :=
  ∀ t, x.pdu_content = some (.textMessage t) → t.FullHeader

open Motorola in
theorem Motorola.TextMessageProtocol.TextMessage.read_lossless_on (m : TextMessageProtocol.MessageHeaderBits) :
    LosslessOn TextMessageProtocol.TextMessage.FullHeader 0 (TextMessageProtocol.TextMessage.read m)
      (TextMessageProtocol.TextMessage.read m) 0 := by
  unfold TextMessageProtocol.TextMessage.read
  refine LosslessOn.bind (m := 0) (Q := fun o : Option TextMessageProtocol.TextMessageHeaderSequenceAndEncoding => ∀ h, o = some h → h.has_encoding_header = true)
    (·.text_message_header_sequence_and_encoding) (fun _ h => h) (LosslessOn.optionally ?_) (fun _ _ => .of ?_) (by returns) (by returns)
  · intro b b' p p' x s s' hx
    exact TextMessageProtocol.TextMessageHeaderSequenceAndEncoding.read_lossless_on b b' p p' x s s' (hx x rfl)
  · refine Lossless.bind (m := 0) (·.text_message) (Lossless.decodeWith Lossless.full decodeUtf16le_inj) (fun _ => ?_) (by returns) (by returns)
    exact Lossless.pure rfl

open Motorola in
theorem Motorola.TextMessageProtocol.readPduContent_lossless_on (on : Nat) (m : TextMessageProtocol.MessageHeaderBits) :
    LosslessOn (fun x => ∀ t, x = some (.textMessage t) → t.FullHeader) 0 (TextMessageProtocol.readPduContent on m)
      (TextMessageProtocol.readPduContent on m) 0 := by
  unfold TextMessageProtocol.readPduContent
  have ht : ∀ m : TextMessageProtocol.MessageHeaderBits, LosslessOn
      (fun x : TextMessageProtocol.TextMessage => ∀ t, some (TextMessageProtocol.PduContentUnion.textMessage x) = some (.textMessage t) →
        t.FullHeader) 0 (TextMessageProtocol.TextMessage.read m) (TextMessageProtocol.TextMessage.read m) 0 :=
    fun m b b' p p' x s s' hx => TextMessageProtocol.TextMessage.read_lossless_on m b b' p p' x s s' (hx x rfl)
  refine LosslessOn.ite (fun _ => .of (Lossless.map (TextMessageProtocol.TmsServiceAvailability.read_lossless _) fun _ _ h => by injections)) fun _ => ?_
  refine LosslessOn.ite (fun _ => .of (Lossless.map (TextMessageProtocol.TmsAcknowledgement.read_lossless _) fun _ _ h => by injections)) fun _ => ?_
  refine LosslessOn.ite (fun _ => LosslessOn.map (ht m) fun _ _ h => by injections) fun _ => ?_
  refine LosslessOn.ite (fun _ => LosslessOn.map (ht m) fun _ _ h => by injections) fun _ => ?_
  exact .of (Lossless.pure rfl)

open Motorola in
theorem Motorola.TextMessageProtocol.read_lossless_on :
    LosslessOn TextMessageProtocol.FullHeader 0 TextMessageProtocol.read TextMessageProtocol.read 0 := by
  unfold TextMessageProtocol.read
  refine LosslessOn.bind (m := 0) (Q := fun _ => True) (·.message_size) (fun _ _ => trivial) (.of Lossless.u2be) (fun _ _ => ?_) (by returns) (by returns)
  refine LosslessOn.bind (m := 0) (Q := fun _ => True) (·.message_header) (fun _ _ => trivial) (.of TextMessageProtocol.MessageHeaderBits.read_lossless) (fun m _ => ?_) (by returns) (by returns)
  refine LosslessOn.bind (m := 0) (Q := fun _ => True) (·.len_address) (fun _ _ => trivial) (.of Lossless.u1) (fun _ _ => ?_) (by returns) (by returns)
  refine LosslessOn.bind (m := 0) (Q := fun _ => True) (·.address) (fun _ _ => trivial) (.of (Lossless.optionally fun _ _ => Lossless.bytes _)) (fun _ _ => ?_) (by returns) (by returns)
  refine LosslessOn.bind (m := 0) (·.pdu_content) (fun _ h => h) (TextMessageProtocol.readPduContent_lossless_on _ m) (fun _ _ => .of ?_) (by returns) (by returns)
  refine Lossless.bind (m := 0) (·.unparsed_data) Lossless.full (fun _ => ?_) (by returns) (by returns)
  exact Lossless.pure rfl

end Dmr
