import Verif.Props.HyteraMessages
import Verif.Props.Streaming
import Verif.ErrorsAll
/-
Properties C15 (HDAP framing), C17 (HSTRP: termination and byte accounting) and C18 (HSTRP round trip).
-/

namespace Dmr.Hytera

/-! ### C15 -/

/-- The message of protocol `protocol` which lies at offset `q` of the data: each protocol's own decoder, run there. -/
def messageAt (protocol : Nat) (b : Bytes) (q : Nat) : Parsed (Option HyteraDmrApplicationProtocol.DataUnion) :=
  if protocol = 0x02 then Parsed.as (parseAt RadioControlProtocol.read b q) fun m => some (.radioControlProtocol m)
  else if protocol = 0x08 then Parsed.as (parseAt LocationProtocol.read b q) fun m => some (.locationProtocol m)
  else if protocol = 0x09 then Parsed.as (parseAt TextMessageProtocol.read b q) fun m => some (.textMessageProtocol m)
  else if protocol = 0x11 then Parsed.as (parseAt RadioRegistrationService.read b q) fun m => some (.radioRegistrationService m)
  else if protocol = 0x12 then Parsed.as (parseAt TelemetryProtocol.read b q) fun m => some (.telemetryProtocol m)
  else if protocol = 0x13 then Parsed.as (parseAt DataTransmitProtocol.read b q) fun m => some (.dataTransmitProtocol m)
  else if protocol = 0x14 then Parsed.as (parseAt DataDeliveryStates.read b q) fun m => some (.dataDeliveryStates m)
  else .ok (none, q)

theorem messageAt_eq (protocol : Nat) (b : Bytes) (q : Nat) (hq : q ≤ b.length) :
    HyteraDmrApplicationProtocol.bodySpec protocol b q = messageAt protocol b q := by
  unfold HyteraDmrApplicationProtocol.bodySpec messageAt
  rw [RadioControlProtocol.parses.parseAt b q hq, LocationProtocol.parses.parseAt b q hq,
    TextMessageProtocol.parses.parseAt b q hq, RadioRegistrationService.parses.parseAt b q hq,
    TelemetryProtocol.parses.parseAt b q hq, DataTransmitProtocol.parses.parseAt b q hq,
    DataDeliveryStates.fixed.parses.parseAt b q hq]
  by_cases h1 : protocol = 0x02
  · subst h1; rfl
  by_cases h2 : protocol = 0x08
  · subst h2; rfl
  by_cases h3 : protocol = 0x09
  · subst h3; rfl
  by_cases h4 : protocol = 0x11
  · subst h4; rfl
  by_cases h5 : protocol = 0x12
  · subst h5; rfl
  by_cases h6 : protocol = 0x13
  · subst h6; rfl
  by_cases h7 : protocol = 0x14
  · subst h7; rfl
  simp only [h1, h2, h3, h4, h5, h6, h7, if_false]

theorem messageAt_range (protocol : Nat) (b : Bytes) (q : Nat) (hq : q ≤ b.length) : InRange b (messageAt protocol b q) := by
  unfold messageAt
  rw [RadioControlProtocol.parses.parseAt b q hq, LocationProtocol.parses.parseAt b q hq,
    TextMessageProtocol.parses.parseAt b q hq, RadioRegistrationService.parses.parseAt b q hq,
    TelemetryProtocol.parses.parseAt b q hq, DataTransmitProtocol.parses.parseAt b q hq,
    DataDeliveryStates.fixed.parses.parseAt b q hq]
  refine InRange.ite (fun _ => (RadioControlProtocol.parses.range b q hq).as _) fun _ => ?_
  refine InRange.ite (fun _ => (LocationProtocol.parses.range b q hq).as _) fun _ => ?_
  refine InRange.ite (fun _ => (TextMessageProtocol.parses.range b q hq).as _) fun _ => ?_
  refine InRange.ite (fun _ => (RadioRegistrationService.parses.range b q hq).as _) fun _ => ?_
  refine InRange.ite (fun _ => (TelemetryProtocol.parses.range b q hq).as _) fun _ => ?_
  refine InRange.ite (fun _ => (DataTransmitProtocol.parses.range b q hq).as _) fun _ => ?_
  refine InRange.ite (fun _ => (DataDeliveryStates.fixed.parses.range b q hq).as _) fun _ => ?_
  exact InRange.ok hq

/-- C15: an HDAP frame at any offset `q` of the data: when it is accepted, its fields, and where it ends. -/
theorem C15_layout (b : Bytes) (q : Nat) (hq : q ≤ b.length) :
    parseAt HyteraDmrApplicationProtocol.read b q =
      if b.length < q + 1 then .error .eof
      else
        match messageAt (u8 b q % 128) b (q + 1) with
        | .error err => .error err
        | .ok (data, e) =>
          if b.length < e + 2 then .error .eof
          else if u8 b (e + 1) ≠ 0x03 then .error (.validation "/seq/4")
          else .ok ({ is_reliable_message := decide (128 ≤ u8 b q)
                      message_header := resolveEnum _ (u8 b q % 128)
                      data
                      checksum := u8 b e
                      message_footer := [0x03] }, e + 2) := by
  rw [HyteraDmrApplicationProtocol.parses.parseAt b q hq, HyteraDmrApplicationProtocol.spec]
  by_cases h1 : b.length < q + 1
  · rw [if_pos h1, upTo, if_neg (by omega)]
  have h1' : q + 1 ≤ b.length := by omega
  have e1 : bitsAt b (8 * q + 1) 7 = u8 b q % 128 := by rw [bitsAt_byte b q 1 7 (by omega) (by omega)]; simp
  have e2 : flagAt b (8 * q) = decide (128 ≤ u8 b q) := by
    have := flagAt_byte b q 0 (by omega) (by omega)
    rw [Nat.add_zero] at this
    rw [this, decide_eq_decide]
    have := u8_lt b q
    simp only [Nat.sub_zero, Nat.reducePow]
    omega
  rw [if_neg h1, upTo, if_pos h1', e1, e2, messageAt_eq _ _ _ h1']
  rcases hm : messageAt (u8 b q % 128) b (q + 1) with err | ⟨data, e⟩
  · rfl
  have he : e ≤ b.length := messageAt_range _ b (q + 1) h1' data e hm
  rw [next, if_pos he, fixedAt]
  simp only [List.length_cons, List.length_nil]
  by_cases h2 : b.length < e + 2
  · have : ¬ e + 1 + (0 + 1) ≤ b.length := by omega
    rw [if_pos h2, if_neg this]
  have h2' : e + 1 + (0 + 1) ≤ b.length := by omega
  have hs := slice_one_eq b (e + 1) 3 (by omega)
  rw [if_neg h2, if_pos h2']
  by_cases h3 : u8 b (e + 1) = 0x03
  · have h3' : ¬ u8 b (e + 1) ≠ 0x03 := fun h => h h3
    rw [if_neg h3', if_pos (hs.mpr h3)]
  · rw [if_pos h3, if_neg (fun h => h3 (hs.mp h))]

example := C15_layout [9, 9, 0x91, 0, 3, 0, 4, 10, 0, 0, 80, 0x55, 3] 2 (by decide)

/-- The frame with the given reliability flag, protocol number, message and checksum. -/
def hdapFrame (reliable : Bool) (protocol : Nat) (message : Bytes) (checksum : UInt8) : Bytes :=
  [UInt8.ofNat ((if reliable then 128 else 0) + protocol)] ++ message ++ [checksum, 0x03]

/-- `data` is what the bytes `message` mean as a message of protocol number `protocol`: all of them and nothing more is
consumed by that protocol's decoder. Numbers without a protocol have empty messages. (Telemetry, 0x12, is the one
protocol whose meaning depends on where the message lies: see C09.) -/
inductive IsMessage : Nat → Bytes → Option HyteraDmrApplicationProtocol.DataUnion → Prop
  | radioControl {w m} : parseAt RadioControlProtocol.read w 0 = .ok (m, w.length) → IsMessage 0x02 w (some (.radioControlProtocol m))
  | location {w m} : parseAt LocationProtocol.read w 0 = .ok (m, w.length) → IsMessage 0x08 w (some (.locationProtocol m))
  | text {w m} : parseAt TextMessageProtocol.read w 0 = .ok (m, w.length) → IsMessage 0x09 w (some (.textMessageProtocol m))
  | registration {w m} : parseAt RadioRegistrationService.read w 0 = .ok (m, w.length) →
      IsMessage 0x11 w (some (.radioRegistrationService m))
  | transmit {w m} : parseAt DataTransmitProtocol.read w 0 = .ok (m, w.length) → IsMessage 0x13 w (some (.dataTransmitProtocol m))
  | delivery {w m} : parseAt DataDeliveryStates.read w 0 = .ok (m, w.length) → IsMessage 0x14 w (some (.dataDeliveryStates m))
  | other {p} : p < 128 → p ∉ [0x02, 0x08, 0x09, 0x11, 0x12, 0x13, 0x14] → IsMessage p [] none

theorem IsMessage.lt {p : Nat} {w : Bytes} {d : Option HyteraDmrApplicationProtocol.DataUnion} (h : IsMessage p w d) :
    p < 128 ∧ p ≠ 0x12 := by
  cases h
  case other h1 h2 => exact ⟨h1, fun h => h2 (by simp [h])⟩
  all_goals decide

/-- A well-formed byte string decodes to the same object wherever it lies. -/
theorem relocate {r : Rd α} (hl : Local AnyBuf r) {w : Bytes} {m : α} (h : parseAt r w 0 = .ok (m, w.length))
    {b : Bytes} {q : Nat} {tail : Bytes} (hb : b.drop q = w ++ tail) : parseAt r b q = .ok (m, q + w.length) := by
  obtain ⟨_, _, hh⟩ := LocalAt.append (fun _ hr => hl _ _ _ hr) h
  have := (hh b q trivial).1 tail
  rw [Nat.sub_zero, slice, List.drop_zero, List.take_of_length_le (Nat.le_refl _)] at this
  exact this hb

theorem IsMessage.at {p : Nat} {w : Bytes} {d : Option HyteraDmrApplicationProtocol.DataUnion} (h : IsMessage p w d)
    {b : Bytes} {q : Nat} {tail : Bytes} (hb : b.drop q = w ++ tail) : messageAt p b q = .ok (d, q + w.length) := by
  unfold messageAt
  cases h with
  | radioControl h => rw [if_pos rfl, relocate RadioControlProtocol.read_local h hb]; rfl
  | location h => rw [if_neg (by decide), if_pos rfl, relocate LocationProtocol.read_local h hb]; rfl
  | text h => rw [if_neg (by decide), if_neg (by decide), if_pos rfl, relocate TextMessageProtocol.read_local h hb]; rfl
  | registration h =>
    rw [if_neg (by decide), if_neg (by decide), if_neg (by decide), if_pos rfl, relocate RadioRegistrationService.read_local h hb]; rfl
  | transmit h =>
    rw [if_neg (by decide), if_neg (by decide), if_neg (by decide), if_neg (by decide), if_neg (by decide), if_pos rfl,
      relocate DataTransmitProtocol.read_local h hb]; rfl
  | delivery h =>
    rw [if_neg (by decide), if_neg (by decide), if_neg (by decide), if_neg (by decide), if_neg (by decide),
      if_neg (by decide), if_pos rfl, relocate DataDeliveryStates.read_local h hb]; rfl
  | other h1 h2 =>
    simp only [List.mem_cons, List.not_mem_nil, or_false, not_or] at h2
    obtain ⟨g1, g2, g3, g4, g5, g6, g7⟩ := h2
    simp only [g1, g2, g3, g4, g5, g6, g7, if_false]
    rfl

theorem u8_of_drop {b : Bytes} {q : Nat} {x : UInt8} {tail : Bytes} (h : b.drop q = x :: tail) : u8 b q = x.toNat := by
  have : b[q]? = some x := by
    have := congrArg (·[0]?) h
    simpa using this
  simp [u8, List.getD, this]

theorem drop_more {b : Bytes} {q : Nat} {w tail : Bytes} (h : b.drop q = w ++ tail) : b.drop (q + w.length) = tail := by
  rw [← List.drop_drop, h, List.drop_left]

/-- C15: an encoded frame, wherever it lies and whatever follows it, decodes to exactly what was encoded, and the decoder
stops right after it. -/
theorem C15_roundtrip {reliable : Bool} {protocol : Nat} {message : Bytes} {data : Option HyteraDmrApplicationProtocol.DataUnion}
    (h : IsMessage protocol message data) (checksum : UInt8) (b : Bytes) (q : Nat) (tail : Bytes)
    (hb : b.drop q = hdapFrame reliable protocol message checksum ++ tail) :
    parseAt HyteraDmrApplicationProtocol.read b q =
      .ok ({ is_reliable_message := reliable
             message_header := resolveEnum _ protocol
             data
             checksum := checksum.toNat
             message_footer := [0x03] }, q + (hdapFrame reliable protocol message checksum).length) := by
  have hp := h.lt.1
  have hlen : (b.drop q).length = message.length + 3 + tail.length := by
    rw [hb]; simp [hdapFrame]; omega
  rw [List.length_drop] at hlen
  unfold hdapFrame at hb
  simp only [List.cons_append, List.nil_append, List.append_assoc] at hb
  have h0 := u8_of_drop hb
  have hd1 : b.drop (q + 1) = message ++ ([checksum, 3] ++ tail) := by
    have := drop_more (w := [UInt8.ofNat ((if reliable then 128 else 0) + protocol)]) (tail := message ++ ([checksum, 3] ++ tail)) hb
    exact this
  have hd2 : b.drop (q + 1 + message.length) = checksum :: 3 :: tail := drop_more hd1
  have hd3 : b.drop (q + 1 + message.length + 1) = 3 :: tail := by
    have := drop_more (w := [checksum]) (tail := 3 :: tail) hd2
    exact this
  have h0' : u8 b q = (if reliable then 128 else 0) + protocol := by
    rw [h0]
    simp only [UInt8.toNat_ofNat']
    cases reliable <;> simp <;> omega
  rw [C15_layout b q (by omega), if_neg (by omega)]
  have hm : u8 b q % 128 = protocol := by
    rw [h0']; cases reliable <;> simp <;> omega
  rw [hm, h.at hd1]
  simp only
  have hl2 : ¬ b.length < q + 1 + message.length + 2 := by omega
  have h3 : ¬ u8 b (q + 1 + message.length + 1) ≠ 3 := by rw [u8_of_drop hd3]; decide
  rw [if_neg hl2, if_neg h3, u8_of_drop hd2]
  have hr : decide (128 ≤ u8 b q) = reliable := by
    rw [h0']; cases reliable <;> simp <;> omega
  rw [hr]
  simp [hdapFrame]
  omega

example : ∃ m, IsMessage 0x11 [0, 3, 0, 4, 10, 0, 0, 80] (some (.radioRegistrationService m)) ∧
    parseAt HyteraDmrApplicationProtocol.read [9, 9, 0x91, 0, 3, 0, 4, 10, 0, 0, 80, 0x55, 3, 7] 2 =
      .ok (⟨true, .known .radio_registration, some (.radioRegistrationService m), 0x55, [3]⟩, 13) :=
  have h := IsMessage.registration (w := [0, 3, 0, 4, 10, 0, 0, 80]) (by rw [RadioRegistrationService.parses.parseAt _ _ (by simp)]; rfl)
  ⟨_, h, C15_roundtrip (reliable := true) h 0x55 _ 2 [7] rfl⟩

/-- C15: any other footer raises ValidationNotEqualError. -/
theorem C15_footer {reliable : Bool} {protocol : Nat} {message : Bytes} {data : Option HyteraDmrApplicationProtocol.DataUnion}
    (h : IsMessage protocol message data) (checksum footer : UInt8) (hf : footer ≠ 0x03) (b : Bytes) (q : Nat) (tail : Bytes)
    (hb : b.drop q = [UInt8.ofNat ((if reliable then 128 else 0) + protocol)] ++ message ++ [checksum, footer] ++ tail) :
    parseAt HyteraDmrApplicationProtocol.read b q = .error (.validation "/seq/4") := by
  have hp := h.lt.1
  have hlen : (b.drop q).length = message.length + 3 + tail.length := by
    rw [hb]; simp; omega
  rw [List.length_drop] at hlen
  simp only [List.cons_append, List.nil_append, List.append_assoc] at hb
  have h0 := u8_of_drop hb
  have hd1 : b.drop (q + 1) = message ++ ([checksum, footer] ++ tail) := by
    have := drop_more (w := [UInt8.ofNat ((if reliable then 128 else 0) + protocol)]) (tail := message ++ ([checksum, footer] ++ tail)) hb
    exact this
  have hd2 : b.drop (q + 1 + message.length) = checksum :: footer :: tail := drop_more hd1
  have hd3 : b.drop (q + 1 + message.length + 1) = footer :: tail := by
    have := drop_more (w := [checksum]) (tail := footer :: tail) hd2
    exact this
  have h0' : u8 b q = (if reliable then 128 else 0) + protocol := by
    rw [h0]
    simp only [UInt8.toNat_ofNat']
    cases reliable <;> simp <;> omega
  rw [C15_layout b q (by omega), if_neg (by omega)]
  have hm : u8 b q % 128 = protocol := by
    rw [h0']; cases reliable <;> simp <;> omega
  rw [hm, h.at hd1]
  simp only
  have hl2 : ¬ b.length < q + 1 + message.length + 2 := by omega
  have h3 : u8 b (q + 1 + message.length + 1) ≠ 3 := by
    rw [u8_of_drop hd3]
    intro h
    exact hf (UInt8.toNat_inj.mp h)
  rw [if_neg hl2, if_pos h3]

example : ∃ m, IsMessage 0x11 [0, 3, 0, 4, 10, 0, 0, 80] (some (.radioRegistrationService m)) ∧
    parseAt HyteraDmrApplicationProtocol.read [9, 9, 0x91, 0, 3, 0, 4, 10, 0, 0, 80, 0x55, 4, 7] 2 = .error (.validation "/seq/4") :=
  have h := IsMessage.registration (w := [0, 3, 0, 4, 10, 0, 0, 80]) (by rw [RadioRegistrationService.parses.parseAt _ _ (by simp)]; rfl)
  ⟨_, h, C15_footer (reliable := true) h 0x55 4 (by decide) _ 2 [7] rfl⟩

/-- A registration request is a well-formed message. -/
example : ∃ m, IsMessage 0x11 [0, 3, 0, 4, 10, 0, 0, 80] (some (.radioRegistrationService m)) :=
  ⟨_, .registration (by rw [RadioRegistrationService.parses.parseAt _ _ (by simp)]; rfl)⟩


/-! ### C17 -/

/-- The objects `xs` lie one after another in the data, from offset `q` to offset `e`: each is what the decoder `r` reads
where it starts, and the next one starts where it ends. -/
inductive Consecutive (r : Rd α) (b : Bytes) : Nat → List α → Nat → Prop
  | nil (q : Nat) : Consecutive r b q [] q
  | cons {q m e : Nat} {x : α} {xs : List α} : parseAt r b q = .ok (x, m) → q < m → m ≤ b.length →
      Consecutive r b m xs e → Consecutive r b q (x :: xs) e

theorem Consecutive.le {r : Rd α} {b : Bytes} {q e : Nat} {xs : List α} (h : Consecutive r b q xs e) : q ≤ e := by
  induction h with
  | nil => exact Nat.le_refl _
  | cons _ h1 _ _ ih => omega

theorem Consecutive.le_length {r : Rd α} {b : Bytes} {q e : Nat} {xs : List α} (h : Consecutive r b q xs e)
    (hq : q ≤ b.length) : e ≤ b.length := by
  induction h with
  | nil => exact hq
  | cons _ _ h1 _ ih => exact ih h1

/-- A list in which every element but the last announces another one. -/
inductive Chained (more : α → Bool) : List α → Prop
  | last {x : α} : more x = false → Chained more [x]
  | cons {x : α} {xs : List α} : more x = true → Chained more xs → Chained more (x :: xs)

theorem chain_iff {r : Rd α} {f : Bytes → Nat → Parsed α} (hp : Parses r f) (ha : Advances f) (more : α → Bool) (b : Bytes) :
    ∀ (n q : Nat), b.length - q ≤ n → q ≤ b.length → ∀ (xs : List α) (e : Nat),
      (chain f (fun x _ => !more x) b q = .ok (xs, e) ↔ Consecutive r b q xs e ∧ Chained more xs) := by
  intro n
  induction n with
  | zero =>
    intro q hn hq xs e
    have hqe : q = b.length := by omega
    constructor
    · intro h
      rw [chain] at h
      rcases hf : f b q with err | ⟨a, m⟩
      · rw [hf] at h; cases h
      · have h1 := ha b q a m hf
        have h2 := hp.range b q hq a m hf
        omega
    · rintro ⟨h1, h2⟩
      cases h1 with
      | nil => cases h2
      | cons g1 g2 g3 _ => omega
  | succ n ih =>
    intro q hn hq xs e
    have hpa := hp.parseAt b q hq
    constructor
    · intro h
      rw [chain] at h
      rcases hf : f b q with err | ⟨a, m⟩
      · rw [hf] at h; cases h
      have h1 := ha b q a m hf
      have h2 : m ≤ b.length := hp.range b q hq a m hf
      rw [hf] at h
      rw [hf] at hpa
      simp only at h
      cases hm : more a with
      | false =>
        rw [hm, Bool.not_false, if_pos rfl] at h
        cases h
        exact ⟨.cons hpa h1 h2 (.nil _), .last hm⟩
      | true =>
        rw [hm, Bool.not_true, if_neg Bool.false_ne_true, dif_pos ⟨h1, h2⟩] at h
        rcases hc : chain f (fun x _ => !more x) b m with err | ⟨as, e'⟩
        · rw [hc] at h; cases h
        rw [hc] at h
        cases h
        obtain ⟨g1, g2⟩ := (ih m (by omega) h2 _ _).mp hc
        exact ⟨.cons hpa h1 h2 g1, .cons hm g2⟩
    · rintro ⟨h1, h2⟩
      cases h1 with
      | nil => cases h2
      | @cons _ m _ x xs g1 g2 g3 g4 =>
        rw [hpa] at g1
        rw [chain, g1]
        simp only
        cases h2 with
        | last hm =>
          rw [hm, Bool.not_false, if_pos rfl]
          cases g4
          rfl
        | cons hm hc =>
          rw [hm, Bool.not_true, if_neg Bool.false_ne_true, dif_pos ⟨g2, g3⟩, (ih m (by omega) g3 _ _).mpr ⟨g4, hc⟩]

theorem toEnd_iff {r : Rd α} {f : Bytes → Nat → Parsed α} (hp : Parses r f) (ha : Advances f) (b : Bytes) :
    ∀ (n q : Nat), b.length - q ≤ n → q ≤ b.length → ∀ (xs : List α) (e : Nat),
      (toEnd f b q = .ok (xs, e) ↔ Consecutive r b q xs e ∧ e = b.length) := by
  intro n
  induction n with
  | zero =>
    intro q hn hq xs e
    have hqe : q = b.length := by omega
    rw [toEnd, if_pos (by omega)]
    constructor
    · intro h; cases h; exact ⟨.nil _, hqe⟩
    · rintro ⟨h1, h2⟩
      cases h1 with
      | nil => rfl
      | cons g1 g2 g3 _ => omega
  | succ n ih =>
    intro q hn hq xs e
    have hpa := hp.parseAt b q hq
    by_cases hqe : b.length ≤ q
    · rw [toEnd, if_pos hqe]
      constructor
      · intro h; cases h; exact ⟨.nil _, by omega⟩
      · rintro ⟨h1, h2⟩
        cases h1 with
        | nil => rfl
        | cons g1 g2 g3 _ => omega
    rw [toEnd, if_neg hqe]
    constructor
    · intro h
      rcases hf : f b q with err | ⟨a, m⟩
      · rw [hf] at h; cases h
      have h1 := ha b q a m hf
      have h2 : m ≤ b.length := hp.range b q hq a m hf
      rw [hf] at h
      rw [hf] at hpa
      simp only at h
      rw [dif_pos ⟨h1, h2⟩] at h
      rcases hc : toEnd f b m with err | ⟨as, e'⟩
      · rw [hc] at h; cases h
      rw [hc] at h
      cases h
      obtain ⟨g1, g2⟩ := (ih m (by omega) h2 _ _).mp hc
      exact ⟨.cons hpa h1 h2 g1, g2⟩
    · rintro ⟨h1, h2⟩
      cases h1 with
      | nil => omega
      | @cons _ m _ x xs g1 g2 g3 g4 =>
        rw [hpa] at g1
        rw [g1]
        simp only
        rw [dif_pos ⟨g2, g3⟩, (ih m (by omega) g3 _ _).mpr ⟨g4, h2⟩]

/-- The options part, from offset 6 to `e`. -/
def OptionsPart (b : Bytes) (present : Prop) (e : Nat) (options : Option (List HyteraSimpleTransportReliabilityProtocol.Option)) :
    Prop :=
  (present ∧ ∃ os, options = some os ∧ Consecutive HyteraSimpleTransportReliabilityProtocol.Option.read b 6 os e ∧
    Chained (·.expect_more_options) os) ∨
  (¬ present ∧ options = none ∧ e = 6)

/-- The application frames, from offset `s` to `e`: if there are any they fill the rest of the packet. -/
def FramesPart (b : Bytes) (present : Prop) (s e : Nat) (data : Option (List HyteraDmrApplicationProtocol)) : Prop :=
  (present ∧ ∃ fs, data = some fs ∧ Consecutive HyteraDmrApplicationProtocol.read b s fs e ∧ e = b.length) ∨
  (¬ present ∧ data = none ∧ e = s)

/-- What the object `x` must be for the packet `b`; `e1` and `e2` are where the options and the frames end. -/
structure IsHstrp (b : Bytes) (x : HyteraSimpleTransportReliabilityProtocol) (e1 e2 : Nat) : Prop where
  size : 6 ≤ b.length
  header : b.take 2 = [0x32, 0x42] ∧ x.header = [0x32, 0x42]
  version : x.version = u8 b 2
  reserved : x.reserved = u8 b 3 / 64
  has_option : x.has_option = (u8 b 3).testBit 5
  is_reject : x.is_reject = (u8 b 3).testBit 4
  is_close : x.is_close = (u8 b 3).testBit 3
  is_connect : x.is_connect = (u8 b 3).testBit 2
  is_heartbeat : x.is_heartbeat = (u8 b 3).testBit 1
  is_ack : x.is_ack = (u8 b 3).testBit 0
  sequence_number : x.sequence_number = 256 * u8 b 4 + u8 b 5
  options : OptionsPart b (6 < b.length ∧ x.has_option ∧ ¬ x.is_heartbeat) e1 x.options
  data : FramesPart b (e1 < b.length ∧ ¬ x.is_reject ∧ ¬ x.is_close ∧ ¬ x.is_connect) e1 e2 x.data
  extra_data : x.extra_data = if e2 = b.length then none else some (b.drop e2)

theorem flag_bit (b : Bytes) (q i : Nat) (hi : i < 8) (h : q < b.length) : flagAt b (8 * q + i) = (u8 b q).testBit (7 - i) := by
  rw [flagAt_byte b q i h hi, Nat.testBit_eq_decide_div_mod_eq]

theorem optPart_iff {c : Prop} [Decidable c] {x : Parsed α} {o e : Nat} {y : Option α} :
    optPart c x o = .ok (y, e) ↔ (c ∧ ∃ a, y = some a ∧ x = .ok (a, e)) ∨ (¬ c ∧ y = none ∧ e = o) := by
  unfold optPart
  by_cases hc : c
  · rw [if_pos hc]
    rcases x with err | ⟨a, m⟩
    · constructor
      · intro h; cases h
      · rintro (⟨_, a, _, h⟩ | ⟨h, _⟩)
        · cases h
        · exact absurd hc h
    · constructor
      · intro h
        cases h
        exact .inl ⟨hc, a, rfl, rfl⟩
      · rintro (⟨_, a, rfl, h⟩ | ⟨h, _⟩)
        · cases h; rfl
        · exact absurd hc h
  · rw [if_neg hc]
    constructor
    · intro h; cases h; exact .inr ⟨hc, rfl, rfl⟩
    · rintro (⟨h, _⟩ | ⟨_, rfl, rfl⟩)
      · exact absurd h hc
      · rfl

/-- C17: exactly what `from_bytes` returns for a packet: the options are read iff the option flag is set, it is not a
heartbeat and bytes remain; they are chained by their continuation bit; the frames are read iff bytes remain and none of
reject, close and connect is set; what is left is the extra data. -/
theorem C17_layout (b : Bytes) (x : HyteraSimpleTransportReliabilityProtocol) :
    fromBytes HyteraSimpleTransportReliabilityProtocol.read b = .ok x ↔ ∃ e1 e2, IsHstrp b x e1 e2 := by
  rw [HyteraSimpleTransportReliabilityProtocol.parses.fromBytes, HyteraSimpleTransportReliabilityProtocol.spec, fixedAt]
  simp only [List.length_cons, List.length_nil, Nat.zero_add, Nat.reduceAdd, Nat.mul_zero]
  have hnot : ∀ (h : ¬ 6 ≤ b.length), ¬ ∃ e1 e2, IsHstrp b x e1 e2 := fun h ⟨_, _, hx⟩ => h hx.size
  by_cases h6 : 6 ≤ b.length
  swap
  · refine iff_of_false ?_ (hnot h6)
    intro h
    split at h
    · split at h
      · rw [upTo, if_neg h6] at h; cases h
      · cases h
    · cases h
  rw [if_pos (by omega : 2 ≤ b.length)]
  by_cases hm : slice b 0 2 = [0x32, 0x42]
  swap
  · rw [if_neg hm]
    refine iff_of_false (by intro h; cases h) ?_
    rintro ⟨_, _, hx⟩
    exact hm (by rw [slice, List.drop_zero]; exact hx.header.1)
  rw [if_pos hm, upTo, if_pos h6]
  have f2 := flag_bit b 3 2 (by omega) (by omega)
  have f3 := flag_bit b 3 3 (by omega) (by omega)
  have f4 := flag_bit b 3 4 (by omega) (by omega)
  have f5 := flag_bit b 3 5 (by omega) (by omega)
  have f6 := flag_bit b 3 6 (by omega) (by omega)
  have f7 := flag_bit b 3 7 (by omega) (by omega)
  have f0 : bitsAt b 24 2 = u8 b 3 / 64 := by
    have := bitsAt_byte b 3 0 2 (by omega) (by omega)
    rw [show 8 * 3 + 0 = 24 from rfl] at this
    rw [this]
    have := u8_lt b 3
    simp only [Nat.reduceSub, Nat.reducePow]
    omega
  simp only [Nat.reduceMul, Nat.reduceAdd, Nat.reduceSub] at f2 f3 f4 f5 f6 f7
  rw [f0, f2, f3, f4, f5, f6, f7]
  have hu : u16be b 4 = 256 * u8 b 4 + u8 b 5 := by simp [u16be, Nat.mul_comm]
  constructor
  · intro h
    obtain ⟨e, h⟩ := of_map_fst_ok h
    obtain ⟨options, e1, ho, hle1, h⟩ := of_next_ok h
    obtain ⟨data, e2, hd, hle2, h⟩ := of_next_ok h
    cases h
    refine ⟨e1, e2, h6, ⟨by rw [← hm, slice, List.drop_zero], rfl⟩, rfl, rfl, rfl, rfl, rfl, rfl, rfl, rfl, hu, ?_, ?_, rfl⟩
    · rcases optPart_iff.mp ho with ⟨⟨c1, c2, c3⟩, os, rfl, hc⟩ | ⟨c, rfl, rfl⟩
      · exact .inl ⟨⟨by omega, c3, c2⟩, os, rfl, (chain_iff HyteraSimpleTransportReliabilityProtocol.Option.parses HyteraSimpleTransportReliabilityProtocol.Option.advances _ b _ 6 (Nat.le_refl _) h6 _ _).mp hc⟩
      · exact .inr ⟨fun ⟨c1, c2, c3⟩ => c ⟨by omega, c3, c2⟩, rfl, rfl⟩
    · rcases optPart_iff.mp hd with ⟨⟨c1, c2, c3, c4⟩, fs, rfl, hc⟩ | ⟨c, rfl, rfl⟩
      · exact .inl ⟨⟨by omega, c2, c3, c4⟩, fs, rfl,
          (toEnd_iff HyteraDmrApplicationProtocol.parses HyteraDmrApplicationProtocol.advances b _ e1 (Nat.le_refl _) hle1 _ _).mp hc⟩
      · exact .inr ⟨fun ⟨c1, c2, c3, c4⟩ => c ⟨by omega, c2, c3, c4⟩, rfl, rfl⟩
  · rintro ⟨e1, e2, hx⟩
    have hle1 : e1 ≤ b.length := by
      rcases hx.options with ⟨_, os, _, hc, _⟩ | ⟨_, _, rfl⟩
      · exact hc.le_length h6
      · exact h6
    have hle2 : e2 ≤ b.length := by
      rcases hx.data with ⟨_, fs, _, hc, _⟩ | ⟨_, _, rfl⟩
      · exact hc.le_length hle1
      · exact hle1
    have ho : optPart (6 ≠ b.length ∧ ¬ (u8 b 3).testBit 1 = true ∧ (u8 b 3).testBit 5 = true)
        (chain HyteraSimpleTransportReliabilityProtocol.Option.spec (fun o _ => !o.expect_more_options) b 6) 6 = .ok (x.options, e1) := by
      rw [optPart_iff]
      have := hx.options
      rw [hx.has_option, hx.is_heartbeat] at this
      rcases this with ⟨⟨c1, c2, c3⟩, os, h1, h2⟩ | ⟨c, h1, h2⟩
      · exact .inl ⟨⟨by omega, c3, c2⟩, os, h1, (chain_iff HyteraSimpleTransportReliabilityProtocol.Option.parses HyteraSimpleTransportReliabilityProtocol.Option.advances _ b _ 6 (Nat.le_refl _) h6 _ _).mpr h2⟩
      · exact .inr ⟨fun ⟨c1, c2, c3⟩ => c ⟨by omega, c3, c2⟩, h1, h2⟩
    have hd : optPart (e1 ≠ b.length ∧ ¬ (u8 b 3).testBit 4 = true ∧ ¬ (u8 b 3).testBit 3 = true ∧ ¬ (u8 b 3).testBit 2 = true)
        (toEnd HyteraDmrApplicationProtocol.spec b e1) e1 = .ok (x.data, e2) := by
      rw [optPart_iff]
      have := hx.data
      rw [hx.is_reject, hx.is_close, hx.is_connect] at this
      rcases this with ⟨⟨c1, c2, c3, c4⟩, fs, h1, h2⟩ | ⟨c, h1, h2⟩
      · exact .inl ⟨⟨by omega, c2, c3, c4⟩, fs, h1,
          (toEnd_iff HyteraDmrApplicationProtocol.parses HyteraDmrApplicationProtocol.advances b _ e1 (Nat.le_refl _) hle1 _ _).mpr h2⟩
      · exact .inr ⟨fun ⟨c1, c2, c3, c4⟩ => c ⟨by omega, c2, c3, c4⟩, h1, h2⟩
    rw [ho, next, if_pos hle1, hd]
    simp only [next]
    rw [if_pos hle2]
    obtain ⟨hdr, ver, res, a1, a2, a3, a4, a5, a6, sq, os, dt, ex⟩ := x
    obtain ⟨_, k1, k2, k3, k4, k5, k6, k7, k8, k9, k10, _, _, k11⟩ := hx
    simp only at k1 k2 k3 k4 k5 k6 k7 k8 k9 k10 k11 ⊢
    subst k2 k3 k4 k5 k6 k7 k8 k9 k11
    rw [k1.2, k10, hu]
    rfl

/-- C17: header, options, frames and extra data account for every byte of the input. -/
theorem C17_accounting {b : Bytes} {x : HyteraSimpleTransportReliabilityProtocol} {e1 e2 : Nat} (h : IsHstrp b x e1 e2) :
    6 ≤ e1 ∧ e1 ≤ e2 ∧ e2 ≤ b.length ∧
    b = b.take 6 ++ slice b 6 (e1 - 6) ++ slice b e1 (e2 - e1) ++ (x.extra_data.getD []) ∧
    (x.extra_data ≠ some []) := by
  have h6 := h.size
  have h1 : 6 ≤ e1 := by
    rcases h.options with ⟨_, os, _, hc, _⟩ | ⟨_, _, rfl⟩
    · exact hc.le
    · exact Nat.le_refl _
  have hle1 : e1 ≤ b.length := by
    rcases h.options with ⟨_, os, _, hc, _⟩ | ⟨_, _, rfl⟩
    · exact hc.le_length h6
    · exact h6
  have h2 : e1 ≤ e2 := by
    rcases h.data with ⟨_, os, _, hc, _⟩ | ⟨_, _, rfl⟩
    · exact hc.le
    · exact Nat.le_refl _
  have hle2 : e2 ≤ b.length := by
    rcases h.data with ⟨_, fs, _, hc, _⟩ | ⟨_, _, rfl⟩
    · exact hc.le_length hle1
    · exact hle1
  refine ⟨h1, h2, hle2, ?_, ?_⟩
  · have e1' : b.take 6 ++ slice b 6 (e1 - 6) = b.take e1 := by
      rw [take_append_slice]; congr 1; omega
    have e2' : b.take e1 ++ slice b e1 (e2 - e1) = b.take e2 := by
      rw [take_append_slice]; congr 1; omega
    rw [e1', e2', h.extra_data]
    split
    · rename_i he; simp [he]
    · simp
  · rw [h.extra_data]
    split
    · simp
    · rename_i he
      intro hc
      have : (b.drop e2).length = 0 := by rw [Option.some.inj hc]; rfl
      rw [List.length_drop] at this
      omega

/-- A closing packet with an option and three octets of rest. -/
example : IsHstrp [0x32, 0x42, 0, 0x28, 0, 7, 3, 2, 8, 9, 1, 1, 1]
    ⟨[0x32, 0x42], 0, 0, true, false, true, false, false, false, 7, some [⟨false, .known .device_id, 2, [8, 9]⟩], none, some [1, 1, 1]⟩ 10 10 := by
  refine ⟨by decide, ⟨by decide, rfl⟩, by decide, by decide, by decide, by decide, by decide, by decide, by decide, by decide,
    by decide, .inl ⟨by decide, _, rfl, ?_, ?_⟩, .inr ⟨by decide, rfl, rfl⟩, by decide⟩
  · exact .cons (m := 10) (by decide) (by decide) (by decide) (.nil _)
  · exact .last rfl

/-- C17: parsing terminates on every input (the model reports an endless loop as `diverge`): otherwise it raises EOFError,
ValidationNotEqualError, UnicodeDecodeError or ValueError. -/
theorem C17_terminates (b : Bytes) : fromBytes HyteraSimpleTransportReliabilityProtocol.read b ≠ .error .diverge := by
  rw [HyteraSimpleTransportReliabilityProtocol.parses.fromBytes]
  intro h
  rcases hs : HyteraSimpleTransportReliabilityProtocol.spec b 0 with err | y
  · rw [hs] at h
    cases h
    have := HyteraSimpleTransportReliabilityProtocol.spec_errs b 0 _ hs
    simp [PyErr.kind] at this
  · rw [hs] at h; cases h

/-! ### C18 -/

/-- One option (command number and payload) on the wire. -/
def optionBytes (more : Bool) (o : Nat × Bytes) : Bytes :=
  [UInt8.ofNat ((if more then 128 else 0) + o.1), UInt8.ofNat o.2.length] ++ o.2

/-- A list of options on the wire: all but the last with the continuation bit. -/
def encodeOptions : List (Nat × Bytes) → Bytes
  | [] => []
  | [o] => optionBytes false o
  | o :: os => optionBytes true o ++ encodeOptions os

/-- The object for one option. -/
def optionObject (more : Bool) (o : Nat × Bytes) : HyteraSimpleTransportReliabilityProtocol.Option :=
  { expect_more_options := more, command := resolveEnum _ o.1, len_option_payload := o.2.length, option_payload := o.2 }

/-- The objects for a list of options. -/
def optionObjects : List (Nat × Bytes) → List HyteraSimpleTransportReliabilityProtocol.Option
  | [] => []
  | [o] => [optionObject false o]
  | o :: os => optionObject true o :: optionObjects os

/-- A well-formed option: a 7 bit command and at most 255 bytes of payload. -/
def GoodOption (o : Nat × Bytes) : Prop := o.1 < 128 ∧ o.2.length < 256

/-- `f` is a complete HDAP frame which means `x` (and is not telemetry: see `C18_telemetry`). -/
def IsFrame (f : Bytes) (x : HyteraDmrApplicationProtocol) : Prop :=
  parseAt HyteraDmrApplicationProtocol.read f 0 = .ok (x, f.length) ∧ x.message_header ≠ .known .telemetry_protocol

/-- Every frame of C15 is one. -/
theorem isFrame_of_message {reliable : Bool} {protocol : Nat} {message : Bytes}
    {data : Option HyteraDmrApplicationProtocol.DataUnion} (h : IsMessage protocol message data) (checksum : UInt8) :
    IsFrame (hdapFrame reliable protocol message checksum)
      ⟨reliable, resolveEnum _ protocol, data, checksum.toNat, [0x03]⟩ := by
  refine ⟨?_, ?_⟩
  · have := C15_roundtrip (reliable := reliable) h checksum (hdapFrame reliable protocol message checksum) 0 [] (by simp)
    rw [Nat.zero_add] at this
    exact this
  · simp only
    intro hc
    cases h <;> try exact absurd hc (by decide)
    rename_i h1 h2
    revert hc
    revert protocol
    decide

theorem option_at {more : Bool} {o : Nat × Bytes} (h : GoodOption o) {b : Bytes} {q : Nat} {tail : Bytes}
    (hb : b.drop q = optionBytes more o ++ tail) :
    parseAt HyteraSimpleTransportReliabilityProtocol.Option.read b q =
      .ok (optionObject more o, q + (optionBytes more o).length) := by
  obtain ⟨c, p⟩ := o
  obtain ⟨hc, hp⟩ := h
  simp only at hc hp
  have hlen : (b.drop q).length = 2 + p.length + tail.length := by rw [hb]; simp [optionBytes]; omega
  rw [List.length_drop] at hlen
  unfold optionBytes at hb
  simp only [List.cons_append, List.nil_append] at hb
  have h0 := u8_of_drop hb
  have hd1 : b.drop (q + 1) = UInt8.ofNat p.length :: (p ++ tail) := by
    have := drop_more (w := [UInt8.ofNat ((if more then 128 else 0) + c)]) (tail := UInt8.ofNat p.length :: (p ++ tail)) hb
    exact this
  have hd2 : b.drop (q + 2) = p ++ tail := by
    have := drop_more (w := [UInt8.ofNat p.length]) (tail := p ++ tail) hd1
    exact this
  have h1 : u8 b (q + 1) = p.length := by
    rw [u8_of_drop hd1, UInt8.toNat_ofNat']; omega
  have h0' : u8 b q = (if more then 128 else 0) + c := by
    rw [h0, UInt8.toNat_ofNat']; cases more <;> simp <;> omega
  have hcmd : bitsAt b (8 * q + 1) 7 = c := by
    rw [bitsAt_byte b q 1 7 (by omega) (by omega), h0']; cases more <;> simp <;> omega
  have hflag : flagAt b (8 * q) = more := by
    have := flagAt_byte b q 0 (by omega) (by omega)
    rw [Nat.add_zero] at this
    rw [this, h0']
    cases more <;> simp <;> omega
  rw [HyteraSimpleTransportReliabilityProtocol.Option.parses.parseAt b q (by omega),
    HyteraSimpleTransportReliabilityProtocol.Option.spec, upTo, if_pos (by omega), upTo, h1,
    if_pos (by omega : q + 2 + p.length ≤ b.length), hcmd, hflag]
  have hs : slice b (q + 2) p.length = p := by rw [slice, hd2, List.take_left]
  rw [hs]
  simp [optionBytes, optionObject]
  omega

theorem options_at {b : Bytes} : ∀ (os : List (Nat × Bytes)) (q : Nat) (tail : Bytes), (∀ o ∈ os, GoodOption o) →
    b.drop q = encodeOptions os ++ tail → q ≤ b.length →
    Consecutive HyteraSimpleTransportReliabilityProtocol.Option.read b q (optionObjects os) (q + (encodeOptions os).length) ∧
    (os ≠ [] → Chained (·.expect_more_options) (optionObjects os))
  | [], q, tail, _, _, _ => ⟨.nil _, fun h => absurd rfl h⟩
  | [o], q, tail, hg, hb, hq => by
    have hlen : (b.drop q).length = (optionBytes false o).length + tail.length := by rw [hb]; simp [encodeOptions]
    rw [List.length_drop] at hlen
    have hpos : 0 < (optionBytes false o).length := by simp [optionBytes]
    exact ⟨.cons (option_at (hg o (by simp)) hb) (by omega) (by omega) (.nil _), fun _ => .last rfl⟩
  | o :: o' :: os, q, tail, hg, hb, hq => by
    have hb' : b.drop q = optionBytes true o ++ (encodeOptions (o' :: os) ++ tail) := by
      rw [hb, encodeOptions, List.append_assoc]
      simp
    have hlen : (b.drop q).length = (optionBytes true o).length + ((encodeOptions (o' :: os)).length + tail.length) := by
      rw [hb']; simp
    rw [List.length_drop] at hlen
    have hpos : 0 < (optionBytes true o).length := by simp [optionBytes]
    obtain ⟨h1, h2⟩ := options_at (o' :: os) (q + (optionBytes true o).length) tail (fun x hx => hg x (List.mem_cons_of_mem _ hx))
      (drop_more hb') (by omega)
    refine ⟨?_, fun _ => .cons rfl (h2 (by simp))⟩
    have he : q + (encodeOptions (o :: o' :: os)).length =
        q + (optionBytes true o).length + (encodeOptions (o' :: os)).length := by
      rw [encodeOptions, List.length_append]
      · omega
      · simp
    rw [he]
    exact .cons (option_at (hg o (by simp)) hb') (by omega) (by omega) h1

theorem frame_at {f : Bytes} {x : HyteraDmrApplicationProtocol} (h : IsFrame f x) {b : Bytes} {q : Nat} {tail : Bytes}
    (hb : b.drop q = f ++ tail) : parseAt HyteraDmrApplicationProtocol.read b q = .ok (x, q + f.length) := by
  obtain ⟨_, _, hh⟩ := LocalAt.append (G := AnyBuf)
    (fun _ hr => HyteraDmrApplicationProtocol.read_relocatable hr h.2) h.1
  have := (hh b q trivial).1 tail
  rw [Nat.sub_zero, slice, List.drop_zero, List.take_of_length_le (Nat.le_refl _)] at this
  exact this hb

theorem frames_at {b : Bytes} : ∀ (fs : List (Bytes × HyteraDmrApplicationProtocol)) (q : Nat) (tail : Bytes),
    (∀ f ∈ fs, IsFrame f.1 f.2) → b.drop q = (fs.map (·.1)).flatten ++ tail → q ≤ b.length →
    Consecutive HyteraDmrApplicationProtocol.read b q (fs.map (·.2)) (q + (fs.map (·.1)).flatten.length)
  | [], q, tail, _, _, _ => .nil _
  | f :: fs, q, tail, hg, hb, hq => by
    have hb' : b.drop q = f.1 ++ ((fs.map (·.1)).flatten ++ tail) := by rw [hb]; simp
    have hlen : (b.drop q).length = f.1.length + (((fs.map (·.1)).flatten).length + tail.length) := by
      rw [hb', List.length_append, List.length_append]
    rw [List.length_drop] at hlen
    have hf := hg f (by simp)
    have hat := frame_at hf hb'
    have hadv : q < q + f.1.length := by
      have := hat
      rw [HyteraDmrApplicationProtocol.parses.parseAt b q hq] at this
      exact HyteraDmrApplicationProtocol.advances b q _ _ this
    have h1 := frames_at fs (q + f.1.length) tail (fun x hx => hg x (List.mem_cons_of_mem _ hx)) (drop_more hb') (by omega)
    have he : q + ((f :: fs).map (·.1)).flatten.length = q + f.1.length + ((fs.map (·.1)).flatten).length := by
      simp; omega
    rw [he]
    exact .cons hat hadv (by omega) h1

/-- A packet on the wire. -/
def hstrpPacket (version flags : UInt8) (seq : Nat) (body : Bytes) : Bytes :=
  [0x32, 0x42, version, flags, UInt8.ofNat (seq / 256), UInt8.ofNat (seq % 256)] ++ body

theorem hstrp_of_parts {version flags : UInt8} {seq : Nat} (hseq : seq < 65536) (os : List (Nat × Bytes)) (hos : ∀ o ∈ os, GoodOption o)
    (rest : Bytes)
    (ho : os ≠ [] → flags.toNat.testBit 5 = true ∧ flags.toNat.testBit 1 = false)
    (ho' : os = [] → flags.toNat.testBit 5 = false ∨ flags.toNat.testBit 1 = true ∨ rest = [])
    {data : Option (List HyteraDmrApplicationProtocol)} {e2 : Nat}
    (hd : FramesPart (hstrpPacket version flags seq (encodeOptions os ++ rest))
      (rest ≠ [] ∧ ¬ flags.toNat.testBit 4 ∧ ¬ flags.toNat.testBit 3 ∧ ¬ flags.toNat.testBit 2)
      (6 + (encodeOptions os).length) e2 data) :
    fromBytes HyteraSimpleTransportReliabilityProtocol.read (hstrpPacket version flags seq (encodeOptions os ++ rest)) =
      .ok { header := [0x32, 0x42]
            version := version.toNat
            reserved := flags.toNat / 64
            has_option := flags.toNat.testBit 5
            is_reject := flags.toNat.testBit 4
            is_close := flags.toNat.testBit 3
            is_connect := flags.toNat.testBit 2
            is_heartbeat := flags.toNat.testBit 1
            is_ack := flags.toNat.testBit 0
            sequence_number := seq
            options := if os = [] then none else some (optionObjects os)
            data
            extra_data := if e2 = 6 + (encodeOptions os).length + rest.length then none
              else some ((hstrpPacket version flags seq (encodeOptions os ++ rest)).drop e2) } := by
  rw [C17_layout]
  have hlen : (hstrpPacket version flags seq (encodeOptions os ++ rest)).length = 6 + (encodeOptions os).length + rest.length := by
    simp [hstrpPacket]; omega
  have hlt : ∀ os : List (Nat × Bytes), os ≠ [] → 0 < (encodeOptions os).length := by
    intro os h
    match os with
    | [] => exact absurd rfl h
    | [o] => simp [encodeOptions, optionBytes]
    | o :: o' :: os =>
      rw [encodeOptions]
      · simp [optionBytes]
      · simp
  have hrest : rest ≠ [] ↔ 0 < rest.length := by rw [List.length_pos_iff]
  refine ⟨6 + (encodeOptions os).length, e2, by omega, ⟨rfl, rfl⟩, rfl, rfl, rfl, rfl, rfl, rfl, rfl, rfl, ?_, ?_, ?_, ?_⟩
  · show seq = 256 * (UInt8.ofNat (seq / 256)).toNat + (UInt8.ofNat (seq % 256)).toNat
    rw [UInt8.toNat_ofNat', UInt8.toNat_ofNat']; omega
  · by_cases he : os = []
    · refine .inr ⟨?_, ?_, ?_⟩
      · rintro ⟨h1, h2, h3⟩
        simp only at h2 h3
        rcases ho' he with h | h | h
        · rw [h] at h2; cases h2
        · exact h3 h
        · rw [hlen, he, h] at h1; simp [encodeOptions] at h1
      · rw [if_pos he]
      · rw [he]; rfl
    · obtain ⟨h1, h2⟩ := options_at (b := hstrpPacket version flags seq (encodeOptions os ++ rest)) os 6 rest hos rfl (by omega)
      refine .inl ⟨⟨?_, (ho he).1, by simp [(ho he).2]⟩, optionObjects os, if_neg he, h1, h2 he⟩
      have := hlt os he
      omega
  · rw [hlen]
    have : (rest ≠ [] ∧ ¬ flags.toNat.testBit 4 ∧ ¬ flags.toNat.testBit 3 ∧ ¬ flags.toNat.testBit 2) ↔
        (6 + (encodeOptions os).length < 6 + (encodeOptions os).length + rest.length ∧
          ¬ flags.toNat.testBit 4 ∧ ¬ flags.toNat.testBit 3 ∧ ¬ flags.toNat.testBit 2) := by
      rw [hrest]
      constructor <;> rintro ⟨h1, h2⟩ <;> exact ⟨by omega, h2⟩
    rw [propext this] at hd
    exact hd
  · rw [hlen]

/-- C18: any options followed by any frames decode back to exactly those, with nothing left over. (The option flag says
whether there are options; frames require that none of reject, close and connect is set.) -/
theorem C18_roundtrip {version flags : UInt8} {seq : Nat} (hseq : seq < 65536) (os : List (Nat × Bytes))
    (hos : ∀ o ∈ os, GoodOption o) (fs : List (Bytes × HyteraDmrApplicationProtocol)) (hfs : ∀ f ∈ fs, IsFrame f.1 f.2)
    (ho : flags.toNat.testBit 5 = !os.isEmpty) (hh : os ≠ [] → flags.toNat.testBit 1 = false)
    (hc : fs ≠ [] → flags.toNat.testBit 4 = false ∧ flags.toNat.testBit 3 = false ∧ flags.toNat.testBit 2 = false) :
    fromBytes HyteraSimpleTransportReliabilityProtocol.read
        (hstrpPacket version flags seq (encodeOptions os ++ (fs.map (·.1)).flatten)) =
      .ok { header := [0x32, 0x42]
            version := version.toNat
            reserved := flags.toNat / 64
            has_option := flags.toNat.testBit 5
            is_reject := flags.toNat.testBit 4
            is_close := flags.toNat.testBit 3
            is_connect := flags.toNat.testBit 2
            is_heartbeat := flags.toNat.testBit 1
            is_ack := flags.toNat.testBit 0
            sequence_number := seq
            options := if os = [] then none else some (optionObjects os)
            data := if fs = [] then none else some (fs.map (·.2))
            extra_data := none } := by
  have hlen : (hstrpPacket version flags seq (encodeOptions os ++ (fs.map (·.1)).flatten)).length =
      6 + (encodeOptions os).length + ((fs.map (·.1)).flatten).length := by
    simp only [hstrpPacket, List.length_append, List.length_cons, List.length_nil]; omega
  have hrest : fs ≠ [] → (fs.map (·.1)).flatten ≠ [] := by
    intro hne hfl
    obtain ⟨f, fs', rfl⟩ := List.exists_cons_of_ne_nil hne
    have hf := hfs f (by simp)
    have h0 : f.1 = [] := by
      simp only [List.map_cons, List.flatten_cons, List.append_eq_nil_iff] at hfl
      exact hfl.1
    have h1 := hf.1
    rw [h0] at h1
    have h2 := HyteraDmrApplicationProtocol.parses.parseAt ([] : Bytes) 0 (by simp)
    rw [h2] at h1
    have := HyteraDmrApplicationProtocol.advances _ _ _ _ h1
    simp at this
  have hd : FramesPart (hstrpPacket version flags seq (encodeOptions os ++ (fs.map (·.1)).flatten))
      ((fs.map (·.1)).flatten ≠ [] ∧ ¬ flags.toNat.testBit 4 ∧ ¬ flags.toNat.testBit 3 ∧ ¬ flags.toNat.testBit 2)
      (6 + (encodeOptions os).length) (6 + (encodeOptions os).length + ((fs.map (·.1)).flatten).length)
      (if fs = [] then none else some (fs.map (·.2))) := by
    by_cases hne : fs = []
    · subst hne
      exact .inr ⟨fun h => h.1 rfl, rfl, rfl⟩
    · obtain ⟨c1, c2, c3⟩ := hc hne
      refine .inl ⟨⟨hrest hne, by simp [c1], by simp [c2], by simp [c3]⟩, fs.map (·.2), if_neg hne, ?_, hlen.symm⟩
      refine frames_at fs _ [] hfs ?_ (by omega)
      rw [List.append_nil]
      have : hstrpPacket version flags seq (encodeOptions os ++ (fs.map (·.1)).flatten) =
          ([0x32, 0x42, version, flags, UInt8.ofNat (seq / 256), UInt8.ofNat (seq % 256)] ++ encodeOptions os) ++
            (fs.map (·.1)).flatten := by simp [hstrpPacket]
      rw [this]
      have hl : ([0x32, 0x42, version, flags, UInt8.ofNat (seq / 256), UInt8.ofNat (seq % 256)] ++ encodeOptions os : Bytes).length =
          6 + (encodeOptions os).length := by simp; omega
      rw [← hl, List.drop_left]
  have := hstrp_of_parts (version := version) hseq os hos _ (fun h => ⟨by rw [ho]; cases os <;> simp_all, hh h⟩)
    (fun h => .inl (by rw [ho, h]; rfl)) hd
  rw [if_pos rfl] at this
  exact this

/-- C18: in a control packet (reject, close or connect) whatever follows the options is returned as extra data. -/
theorem C18_control {version flags : UInt8} {seq : Nat} (hseq : seq < 65536) (os : List (Nat × Bytes))
    (hos : ∀ o ∈ os, GoodOption o) (rest : Bytes)
    (ho : flags.toNat.testBit 5 = !os.isEmpty) (hh : os ≠ [] → flags.toNat.testBit 1 = false)
    (hc : flags.toNat.testBit 4 = true ∨ flags.toNat.testBit 3 = true ∨ flags.toNat.testBit 2 = true) :
    fromBytes HyteraSimpleTransportReliabilityProtocol.read (hstrpPacket version flags seq (encodeOptions os ++ rest)) =
      .ok { header := [0x32, 0x42]
            version := version.toNat
            reserved := flags.toNat / 64
            has_option := flags.toNat.testBit 5
            is_reject := flags.toNat.testBit 4
            is_close := flags.toNat.testBit 3
            is_connect := flags.toNat.testBit 2
            is_heartbeat := flags.toNat.testBit 1
            is_ack := flags.toNat.testBit 0
            sequence_number := seq
            options := if os = [] then none else some (optionObjects os)
            data := none
            extra_data := if rest = [] then none else some rest } := by
  have hd : FramesPart (hstrpPacket version flags seq (encodeOptions os ++ rest))
      (rest ≠ [] ∧ ¬ flags.toNat.testBit 4 ∧ ¬ flags.toNat.testBit 3 ∧ ¬ flags.toNat.testBit 2)
      (6 + (encodeOptions os).length) (6 + (encodeOptions os).length) none := by
    refine .inr ⟨?_, rfl, rfl⟩
    rintro ⟨_, h1, h2, h3⟩
    rcases hc with h | h | h
    · exact h1 h
    · exact h2 h
    · exact h3 h
  have := hstrp_of_parts (version := version) hseq os hos _ (fun h => ⟨by rw [ho]; cases os <;> simp_all, hh h⟩)
    (fun h => .inl (by rw [ho, h]; rfl)) hd
  rw [this]
  have hex : (if 6 + (encodeOptions os).length = 6 + (encodeOptions os).length + rest.length then none
      else some ((hstrpPacket version flags seq (encodeOptions os ++ rest)).drop (6 + (encodeOptions os).length))) =
      (if rest = [] then none else some rest : Option Bytes) := by
    by_cases hr : rest = []
    · subst hr; simp
    · have : ¬ 6 + (encodeOptions os).length = 6 + (encodeOptions os).length + rest.length := by
        have := List.length_pos_iff.mpr hr
        omega
      rw [if_neg this, if_neg hr]
      have : hstrpPacket version flags seq (encodeOptions os ++ rest) =
          ([0x32, 0x42, version, flags, UInt8.ofNat (seq / 256), UInt8.ofNat (seq % 256)] ++ encodeOptions os) ++ rest := by
        simp [hstrpPacket]
      rw [this]
      have hl : ([0x32, 0x42, version, flags, UInt8.ofNat (seq / 256), UInt8.ofNat (seq % 256)] ++ encodeOptions os : Bytes).length =
          6 + (encodeOptions os).length := by simp; omega
      rw [← hl, List.drop_left]
  rw [hex]

example := C18_control (version := 0) (flags := 0x24) (seq := 7) (by decide) [(3, [1, 2, 3, 4]), (4, [9])] (by simp [GoodOption])
  [1, 2, 3] (by decide) (by decide) (by decide)

/-- C18: telemetry is the exception: wherever a telemetry frame lies in an HSTRP packet, it is taken to be 7 bytes long
(without a body, whatever its length field says), and is rejected if its 7th byte is not the footer. -/
theorem C18_telemetry (b : Bytes) (hb : b.take 2 = [0x32, 0x42]) (q : Nat) (hq : q < b.length) (h : u8 b q % 128 = 0x12) :
    parseAt HyteraDmrApplicationProtocol.read b q =
      if b.length < q + 7 then .error .eof
      else if u8 b (q + 6) = 0x03 then
        .ok ({ is_reliable_message := decide (128 ≤ u8 b q)
               message_header := .known .telemetry_protocol
               data := some (.telemetryProtocol
                 { service_type_opcode := resolveEnum _ (u8 b (q + 1))
                   specific_service_opcode := u8 b (q + 2)
                   message_length := u16be b (q + 3)
                   m_specific_service := .raw 0x3242
                   data := none })
               checksum := u8 b (q + 5)
               message_footer := [0x03] }, q + 7)
      else .error (.validation "/seq/4") := by
  have h01 : u8 b 0 = 0x32 ∧ u8 b 1 = 0x42 := by
    match b, hb with
    | x :: y :: _, hb =>
      simp only [List.take_succ_cons, List.take_zero, List.cons.injEq, and_true] at hb
      obtain ⟨rfl, rfl⟩ := hb
      exact ⟨rfl, rfl⟩
  have hu : u16be b 0 = 0x3242 := by rw [u16be, h01.1, h01.2]
  have hl : telemetryTable.lookup (u16be b 0) = none := lookup_none_of_first (by omega)
  have hres : resolveEnum TelemetryProtocol.ServiceSpecificTypes (0x3242 : Nat) = .raw 0x3242 := by decide
  rw [C15_layout b q (by omega), if_neg (by omega), h]
  have hm : messageAt 0x12 b (q + 1) = Parsed.as (TelemetryProtocol.spec b (q + 1)) fun m => some (.telemetryProtocol m) := by
    rw [← TelemetryProtocol.parses.parseAt b (q + 1) (by omega)]
    rfl
  rw [hm, telemetry_no_body hl, hu, hres, upTo]
  by_cases h5 : q + 1 + 4 ≤ b.length
  · rw [if_pos h5]
    simp only [Parsed.as]
    have a1 : q + 1 + 4 = q + 5 := by omega
    have a2 : q + 5 + 1 = q + 6 := by omega
    rw [a1, a2, show q + 5 + 2 = q + 7 by omega, show q + 1 + 1 = q + 2 by omega, show q + 1 + 2 = q + 3 by omega]
    by_cases h7 : b.length < q + 7
    · rw [if_pos h7, if_pos h7]
    · rw [if_neg h7, if_neg h7]
      by_cases hf : u8 b (q + 6) = 3
      · rw [if_pos hf, if_neg (not_not_intro hf)]; rfl
      · rw [if_neg hf, if_pos hf]
  · rw [if_neg h5]
    have h7 : b.length < q + 7 := by omega
    rw [if_pos h7]
    rfl

/-- A packet with a telemetry frame in it, and C09 for it. -/
example : ∃ x fs f t, fromBytes HyteraSimpleTransportReliabilityProtocol.read
      [0x32, 0x42, 0, 0, 0, 7, 0x12, 0xA0, 0x01, 0, 11, 10, 0x03] = .ok x ∧ x.data = some fs ∧ f ∈ fs ∧ f.telemetry? = some t ∧
      t.data = none := by
  have h := C18_telemetry [0x32, 0x42, 0, 0, 0, 7, 0x12, 0xA0, 0x01, 0, 11, 10, 0x03] rfl 6 (by decide) (by decide)
  rw [if_neg (by decide), if_pos (by decide)] at h
  have hx : fromBytes HyteraSimpleTransportReliabilityProtocol.read [0x32, 0x42, 0, 0, 0, 7, 0x12, 0xA0, 0x01, 0, 11, 10, 0x03] =
      .ok ⟨[0x32, 0x42], 0, 0, false, false, false, false, false, false, 7, none, some [_], none⟩ :=
    (C17_layout _ _).mpr ⟨6, 13, by decide, ⟨by decide, rfl⟩, by decide, by decide, by decide, by decide, by decide, by decide,
      by decide, by decide, by decide, .inr ⟨by decide, rfl, rfl⟩,
      .inl ⟨by decide, _, rfl, .cons h (by decide) (by decide) (.nil _), rfl⟩, by decide⟩
  exact ⟨_, _, _, _, hx, rfl, List.mem_singleton.mpr rfl, rfl, C09_in_hstrp _ _ hx _ rfl _ (List.mem_singleton.mpr rfl) _ rfl⟩

/-- C18 is not vacuous: two options and two frames. -/
example : ∃ x, fromBytes HyteraSimpleTransportReliabilityProtocol.read
    (hstrpPacket 0 0x20 7 (encodeOptions [(3, [1, 2, 3, 4]), (4, [9])] ++
      (hdapFrame true 0x11 [0, 3, 0, 4, 10, 0, 0, 80] 0x55 ++ hdapFrame false 0x33 [] 0x77))) = .ok x ∧
    x.options = some [⟨true, .known .device_id, 4, [1, 2, 3, 4]⟩, ⟨false, .known .channel_id, 1, [9]⟩] ∧
    (x.data.map List.length) = some 2 ∧ x.extra_data = none := by
  obtain ⟨m, hm⟩ : ∃ m, IsMessage 0x11 [0, 3, 0, 4, 10, 0, 0, 80] (some (.radioRegistrationService m)) :=
    ⟨_, .registration (by rw [RadioRegistrationService.parses.parseAt _ _ (by simp)]; rfl)⟩
  have h1 := isFrame_of_message (reliable := true) hm 0x55
  have h2 := isFrame_of_message (reliable := false) (protocol := 0x33) (message := []) (data := none) (.other (by decide) (by decide)) 0x77
  have := C18_roundtrip (version := 0) (flags := 0x20) (seq := 7) (by decide) [(3, [1, 2, 3, 4]), (4, [9])]
    (by simp [GoodOption]) [(_, _), (_, _)] (by simpa using ⟨h1, h2⟩) (by decide) (by decide) (fun _ => by decide)
  refine ⟨_, by simpa using this, rfl, rfl, rfl⟩

end Dmr.Hytera
