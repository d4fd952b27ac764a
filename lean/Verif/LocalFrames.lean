import Verif.LocalAll
import Verif.RunAt
/-
`Local` for the decoders with one absolute seek (telemetry, which looks at the first two bytes of the whole stream), and for
the frames that contain them; and what `Local` says about `from_bytes` and about embedded structures.
-/

namespace Dmr

/-- No restriction. -/
def AnyBuf (_ _ : Bytes) : Prop := True
/-- Same first two bytes of the stream. -/
def SameHead (a b : Bytes) : Prop := b.take 2 = a.take 2

namespace Hytera

theorem TelemetryProtocol.computeSpecificService_local : Local SameHead TelemetryProtocol.computeSpecificService := by
  intro s a s1 h
  have key : ∀ t : Stream, TelemetryProtocol.computeSpecificService t =
      if 2 ≤ (t.buf.take 2).length then
        (.ok (resolveEnum _ (u16be (t.buf.take 2) 0)), { buf := t.buf, pos := t.pos, bits := 0, bitsLeft := 0 })
      else (.error .eof, { buf := t.buf, pos := 0 + (t.buf.take 2).length, bits := 0, bitsLeft := 0 }) := by
    intro t
    simp only [TelemetryProtocol.computeSpecificService, Bind.bind, Rd.bind, posIo, seekIo, asEnum, readU2be, readBytes, alignToByte,
      readBytesNotAligned, Pure.pure, Rd.pure, List.drop_zero]
    by_cases h2 : 2 ≤ (t.buf.take 2).length
    · simp only [if_pos h2]
    · simp only [if_neg h2]
  rw [key] at h
  split at h
  · rename_i hl
    cases h
    refine ⟨[], rfl, rfl, rfl, fun t hG _ _ => ⟨fun r' _ => ?_, fun x y hxy => by simp at hxy⟩⟩
    rw [key, show t.buf.take 2 = s.buf.take 2 from hG, if_pos hl]
    rfl
  · cases h

theorem TelemetryProtocol.read_local : Local SameHead TelemetryProtocol.read := by
  unfold TelemetryProtocol.read
  local_reader [TelemetryProtocol.computeSpecificService_local, TelemetryProtocol.readData_local _]

theorem HyteraDmrApplicationProtocol.readData_local (on : EnumVal HyteraDmrApplicationProtocol.MessageHeaderTypes) :
    Local SameHead (HyteraDmrApplicationProtocol.readData on) := by
  unfold HyteraDmrApplicationProtocol.readData
  local_reader [RadioRegistrationService.read_local, TelemetryProtocol.read_local, RadioControlProtocol.read_local,
    TextMessageProtocol.read_local, DataDeliveryStates.read_local, LocationProtocol.read_local, DataTransmitProtocol.read_local]

theorem HyteraDmrApplicationProtocol.read_local : Local SameHead HyteraDmrApplicationProtocol.read := by
  unfold HyteraDmrApplicationProtocol.read
  local_reader [HyteraDmrApplicationProtocol.readData_local _]

theorem HyteraRadioNetworkProtocol.read_local : Local SameHead HyteraRadioNetworkProtocol.read := by
  unfold HyteraRadioNetworkProtocol.read
  local_reader [HyteraDmrApplicationProtocol.read_local]

/-- Without telemetry there is no absolute seek. -/
theorem HyteraDmrApplicationProtocol.readData_relocatable {on : EnumVal HyteraDmrApplicationProtocol.MessageHeaderTypes}
    (h : on ≠ .known .telemetry_protocol) : Local AnyBuf (HyteraDmrApplicationProtocol.readData on) := by
  unfold HyteraDmrApplicationProtocol.readData
  rw [if_neg h]
  local_reader [RadioRegistrationService.read_local, RadioControlProtocol.read_local,
    TextMessageProtocol.read_local, DataDeliveryStates.read_local, LocationProtocol.read_local, DataTransmitProtocol.read_local]

theorem of_bind_ok {r : Rd α} {k : α → Rd β} {s s2 : Stream} {b : β} (h : (r >>= k) s = (.ok b, s2)) :
    ∃ a s1, r s = (.ok a, s1) ∧ k a s1 = (.ok b, s2) := by
  have h' : Rd.bind r k s = (.ok b, s2) := h
  unfold Rd.bind at h'
  rcases h1 : r s with ⟨_ | a, s1⟩
  · rw [h1] at h'; cases h'
  · rw [h1] at h'; exact ⟨a, s1, rfl, h'⟩

theorem HyteraDmrApplicationProtocol.read_relocatable {s s1 : Stream} {x : HyteraDmrApplicationProtocol}
    (h : HyteraDmrApplicationProtocol.read s = (.ok x, s1)) (hx : x.message_header ≠ .known .telemetry_protocol) :
    LocalAt AnyBuf HyteraDmrApplicationProtocol.read s x s1 := by
  unfold HyteraDmrApplicationProtocol.read at h ⊢
  refine LocalAt.bind Local.readFlag (fun flag t1 _ h1 => ?_) h
  refine LocalAt.bind (Local.asEnum (Local.readBitsIntBe _)) (fun on t2 _ h2 => ?_) h1
  have hon : x.message_header = on := by
    obtain ⟨_, _, _, h⟩ := of_bind_ok h2
    obtain ⟨_, _, _, h⟩ := of_bind_ok h
    obtain ⟨_, _, _, h⟩ := of_bind_ok h
    obtain ⟨_, _, _, h⟩ := of_bind_ok h
    obtain ⟨_, _, _, h⟩ := of_bind_ok h
    cases h
    rfl
  have hl := HyteraDmrApplicationProtocol.readData_relocatable (hon ▸ hx)
  refine (?_ : Local AnyBuf _) _ _ _ h2
  local_reader [hl]

end Hytera

/-! ### What it says about `from_bytes` and about embedded structures -/

/-- The stream position after the object: the number of bytes a successful `from_bytes` has consumed. -/
theorem LocalAt.append {G : Bytes → Bytes → Prop} {r : Rd α} {b : Bytes} {a : α} {n : Nat} {q : Nat}
    (h : ∀ s1, r { buf := b, pos := q, bits := 0, bitsLeft := 0 } = (.ok a, s1) →
      LocalAt G r { buf := b, pos := q, bits := 0, bitsLeft := 0 } a s1)
    (hp : parseAt r b q = .ok (a, n)) :
    q ≤ n ∧ (q ≤ b.length → n ≤ b.length) ∧
    ∀ (b' : Bytes) (q' : Nat), G b b' →
      (∀ tail, b'.drop q' = slice b q (n - q) ++ tail → parseAt r b' q' = .ok (a, q' + (n - q))) ∧
      (∀ x y, slice b q (n - q) = b'.drop q' ++ x :: y → parseAt r b' q' = .error .eof) := by
  unfold parseAt Rd.eval at hp
  rcases hr : r { buf := b, pos := q, bits := 0, bitsLeft := 0 } with ⟨_ | a', s1⟩
  · rw [hr] at hp; cases hp
  rw [hr] at hp
  cases hp
  obtain ⟨c, h1, h2, h3, h4⟩ := h s1 hr
  simp only at h1 h2 ⊢
  have hlen : s1.pos - q = c.length := by omega
  have hc : slice b q (s1.pos - q) = c := by
    rw [hlen, slice]
    have : b.drop q = c ++ s1.rest := h3
    rw [this, List.take_left]
  refine ⟨by omega, ?_, ?_⟩
  · intro hq
    have := congrArg List.length (show b.drop q = c ++ s1.rest from h3)
    rw [List.length_drop, List.length_append] at this
    omega
  intro b' q' hG
  obtain ⟨g1, g2⟩ := h4 { buf := b', pos := q', bits := 0, bitsLeft := 0 } hG rfl rfl
  rw [hc, hlen]
  constructor
  · intro tail ht
    unfold parseAt Rd.eval
    rw [g1 tail ht]
    rfl
  · intro x y hxy
    have he := g2 x y hxy
    unfold parseAt Rd.eval
    rcases hr' : r { buf := b', pos := q', bits := 0, bitsLeft := 0 } with ⟨e | _, _⟩
    · rw [hr'] at he; cases he; rfl
    · rw [hr'] at he; cases he

end Dmr
