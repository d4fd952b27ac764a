import Verif.LocalList
import Verif.Props.HyteraFrames
import Verif.Props.HyteraMessages
/-
Properties C41 (bytes after a message do not matter) and C42 (truncated messages are detected).
-/

namespace Dmr
open Dmr.Hytera

/-- The classes these properties are about: all decoders with only sequential reads (`sequentialDecoders`, 123 classes, listed
in Verif/LocalList.lean), and the three which also look at the first two bytes of the stream (telemetry, and the frames that
may contain it). The others look at the size or the end of the stream on purpose. -/
def pduDecoders : List Decoder :=
  sequentialDecoders ++ [⟨"Hytera.TelemetryProtocol", _, TelemetryProtocol.read⟩,
    ⟨"Hytera.HyteraDmrApplicationProtocol", _, HyteraDmrApplicationProtocol.read⟩,
    ⟨"Hytera.HyteraRadioNetworkProtocol", _, HyteraRadioNetworkProtocol.read⟩]

theorem eof_of_upTo {b : Bytes} {e : Nat} {x : Except PyErr γ} (h : b.length < e) : upTo b e x = .error .eof := if_neg (by omega)

theorem hdap_short (b : Bytes) (h : b.length < 2) : fromBytes HyteraDmrApplicationProtocol.read b = .error .eof := by
  rw [HyteraDmrApplicationProtocol.parses.fromBytes]
  unfold HyteraDmrApplicationProtocol.spec
  by_cases h0 : 0 + 1 ≤ b.length
  · rw [upTo, if_pos h0]
    have hb : HyteraDmrApplicationProtocol.bodySpec (bitsAt b (8 * 0 + 1) 7) b (0 + 1) = .error .eof ∨
        HyteraDmrApplicationProtocol.bodySpec (bitsAt b (8 * 0 + 1) 7) b (0 + 1) = .ok (none, 1) := by
      unfold HyteraDmrApplicationProtocol.bodySpec
      repeat' split
      all_goals first
        | right; rfl
        | left
          simp only [RadioRegistrationService.spec, TelemetryProtocol.spec, RadioControlProtocol.spec,
            LocationProtocol.spec, DataTransmitProtocol.spec, TextMessageProtocol.spec, whole]
          first
            | rw [eof_of_upTo (by omega)]; rfl
            | rw [if_neg (by omega)]; rfl
            | rw [fixedAt, if_neg (by simp; omega)]; rfl
    rcases hb with hb | hb
    · rw [hb]; rfl
    · rw [hb, next]
      rw [if_pos (by omega), fixedAt, if_neg (by simp; omega)]
      rfl
  · rw [upTo, if_neg h0]; rfl

theorem telemetry_short (b : Bytes) (h : b.length < 2) : fromBytes TelemetryProtocol.read b = .error .eof :=
  (C09_dispatch b).1 (by omega)

theorem hrnp_short {b : Bytes} (h : b.length < 2) : fromBytes HyteraRadioNetworkProtocol.read b = .error .eof ∨
    (fromBytes HyteraRadioNetworkProtocol.read b = .error (.validation "/seq/0") ∧ b.length = 1 ∧ u8 b 0 ≠ 0x7E) := by
  rw [C16_layout]
  by_cases h1 : b.length < 1
  · rw [if_pos h1]; exact .inl rfl
  · rw [if_neg h1]
    by_cases h2 : u8 b 0 ≠ 0x7E
    · rw [if_pos h2]; exact .inr ⟨rfl, by omega, h2⟩
    · rw [if_neg h2, if_pos (by omega)]; exact .inl rfl

theorem parseAt_of_fromBytes {r : Rd α} {b : Bytes} {x : α} (h : fromBytes r b = .ok x) : ∃ n, parseAt r b 0 = .ok (x, n) := by
  rw [fromBytes_parseAt] at h
  rcases hp : parseAt r b 0 with _ | ⟨a, n⟩
  · rw [hp] at h; cases h
  · rw [hp] at h; cases h; exact ⟨n, rfl⟩

/-- The two properties for a decoder with only sequential reads. -/
theorem streams_any {r : Rd α} (h : Local AnyBuf r) (b : Bytes) (x : α) (n : Nat) (hp : parseAt r b 0 = .ok (x, n)) :
    n ≤ b.length ∧ (∀ tail, parseAt r (b.take n ++ tail) 0 = .ok (x, n)) ∧
    ∀ k, k < n → fromBytes r (b.take k) = .error .eof := by
  obtain ⟨_, hn, hl⟩ := LocalAt.append (fun _ hr => h _ _ _ hr) hp
  have hn := hn (Nat.zero_le _)
  rw [Nat.sub_zero] at hl
  have hs : slice b 0 n = b.take n := by rw [slice, List.drop_zero]
  rw [hs] at hl
  refine ⟨hn, fun tail => ?_, fun k hk => ?_⟩
  · have := (hl (b.take n ++ tail) 0 trivial).1 tail rfl
    rwa [Nat.zero_add] at this
  · obtain ⟨x', y, hxy⟩ : ∃ x y, b.take n = b.take k ++ x :: y := by
      refine ⟨b[k], (b.take n).drop (k + 1), ?_⟩
      have hk' : k < (b.take n).length := by rw [List.length_take]; omega
      have h1 : (b.take n).drop k = b[k] :: (b.take n).drop (k + 1) := by
        rw [List.drop_eq_getElem_cons hk', List.getElem_take]
      rw [← h1]
      have h2 : b.take k = (b.take n).take k := by rw [List.take_take, Nat.min_eq_left (by omega)]
      rw [h2, List.take_append_drop]
    have := (hl (b.take k) 0 trivial).2 x' y hxy
    rw [fromBytes_parseAt, this]
    rfl

/-- The same for a decoder that also looks at the first two bytes of the stream. -/
theorem streams_head {r : Rd α} (h : Local SameHead r) (b : Bytes) (x : α) (n : Nat) (hp : parseAt r b 0 = .ok (x, n))
    (hn2 : 2 ≤ n) (hshort : ∀ k, k < 2 → fromBytes r (b.take k) = .error .eof) :
    n ≤ b.length ∧ (∀ tail, parseAt r (b.take n ++ tail) 0 = .ok (x, n)) ∧
    ∀ k, k < n → fromBytes r (b.take k) = .error .eof := by
  obtain ⟨_, hn, hl⟩ := LocalAt.append (fun _ hr => h _ _ _ hr) hp
  have hn := hn (Nat.zero_le _)
  rw [Nat.sub_zero] at hl
  have hs : slice b 0 n = b.take n := by rw [slice, List.drop_zero]
  rw [hs] at hl
  refine ⟨hn, fun tail => ?_, fun k hk => ?_⟩
  · have hG : SameHead b (b.take n ++ tail) := by
      unfold SameHead
      rw [List.take_append_of_le_length (by rw [List.length_take]; omega), List.take_take, Nat.min_eq_left hn2]
    have := (hl (b.take n ++ tail) 0 hG).1 tail rfl
    rwa [Nat.zero_add] at this
  · by_cases hk2 : k < 2
    · exact hshort k hk2
    have hG : SameHead b (b.take k) := by
      unfold SameHead
      rw [List.take_take, Nat.min_eq_left (by omega)]
    obtain ⟨x', y, hxy⟩ : ∃ x y, b.take n = b.take k ++ x :: y := by
      refine ⟨b[k], (b.take n).drop (k + 1), ?_⟩
      have hk' : k < (b.take n).length := by rw [List.length_take]; omega
      have h1 : (b.take n).drop k = b[k] :: (b.take n).drop (k + 1) := by
        rw [List.drop_eq_getElem_cons hk', List.getElem_take]
      rw [← h1]
      have h2 : b.take k = (b.take n).take k := by rw [List.take_take, Nat.min_eq_left (by omega)]
      rw [h2, List.take_append_drop]
    have := (hl (b.take k) 0 hG).2 x' y hxy
    rw [fromBytes_parseAt, this]
    rfl

theorem hdap_from (b : Bytes) (q : Nat) : AtLeast (q + 3) (HyteraDmrApplicationProtocol.spec b q) := by
  unfold HyteraDmrApplicationProtocol.spec
  refine AtLeast.upTo (AtLeast.next (HyteraDmrApplicationProtocol.bodySpec_from _ b (q + 1)) fun _ e _ => ?_)
  exact AtLeast.fixedAt (AtLeast.ok (by omega))

theorem telemetry_from (b : Bytes) (q : Nat) : AtLeast (q + 4) (TelemetryProtocol.spec b q) := by
  unfold TelemetryProtocol.spec
  refine AtLeast.upTo (AtLeast.next (TelemetryProtocol.bodySpec_from _ b (q + 4)) fun _ e _ => ?_)
  exact AtLeast.ok (by omega)

theorem hrnp_from (b : Bytes) (q : Nat) : AtLeast (q + 12) (HyteraRadioNetworkProtocol.spec b q) := by
  unfold HyteraRadioNetworkProtocol.spec
  refine AtLeast.fixedAt (AtLeast.upTo (AtLeast.next (n := q + 12) ?_ fun _ e _ => ?_))
  · exact AtLeast.optPart (by omega) ((hdap_from b (q + 12)).mono (by omega))
  · exact AtLeast.ok (by omega)

theorem streams_all : ∀ d ∈ pduDecoders, ∀ (b : Bytes) (x : d.Obj) (n : Nat), parseAt d.read b 0 = .ok (x, n) →
    n ≤ b.length ∧ (∀ tail, parseAt d.read (b.take n ++ tail) 0 = .ok (x, n)) ∧
    ∀ k, k < n → fromBytes d.read (b.take k) = .error .eof := by
  unfold pduDecoders
  refine List.forall_mem_append.mpr ⟨fun d hd b x n h => streams_any (sequentialDecoders_local d hd) b x n h, ?_⟩
  refine List.forall_mem_cons.mpr ⟨?_, List.forall_mem_cons.mpr ⟨?_, List.forall_mem_cons.mpr ⟨?_, List.forall_mem_nil _⟩⟩⟩
  · intro b x n h
    have hn : 4 ≤ n := by
      have h' := h
      dsimp only at h'
      rw [TelemetryProtocol.parses.parseAt b 0 (Nat.zero_le _)] at h'
      exact telemetry_from b 0 x n h'
    exact streams_head TelemetryProtocol.read_local b x n h (by omega)
      fun k hk => telemetry_short _ (by rw [List.length_take]; omega)
  · intro b x n h
    have hn : 3 ≤ n := by
      have h' := h
      dsimp only at h'
      rw [HyteraDmrApplicationProtocol.parses.parseAt b 0 (Nat.zero_le _)] at h'
      exact hdap_from b 0 x n h'
    exact streams_head HyteraDmrApplicationProtocol.read_local b x n h (by omega)
      fun k hk => hdap_short _ (by rw [List.length_take]; omega)
  · intro b x n h
    have hn : 12 ≤ n := by
      have h' := h
      dsimp only at h'
      rw [HyteraRadioNetworkProtocol.parses.parseAt b 0 (Nat.zero_le _)] at h'
      exact hrnp_from b 0 x n h'
    refine streams_head HyteraRadioNetworkProtocol.read_local b x n h (by omega) fun k hk => ?_
    rcases hrnp_short (b := b.take k) (by rw [List.length_take]; omega) with he | ⟨_, hl, h0⟩
    · exact he
    · exfalso
      have h' : fromBytes HyteraRadioNetworkProtocol.read b = .ok x := by rw [fromBytes_parseAt, h]; rfl
      obtain ⟨_, hb0, _⟩ := C16_data b x h'
      apply h0
      rw [List.length_take] at hl
      have hk1 : k = 1 := by omega
      subst hk1
      rw [← hb0]
      cases b with
      | nil => simp at hl
      | cons y ys => rfl

/-- C41. A message followed by anything decodes to the same object: for every class of `pduDecoders`, if `from_bytes` accepts
`b`, it accepts `b` followed by any bytes, with the same result. -/
theorem C41_trailing (d : Decoder) (hd : d ∈ pduDecoders) (b : Bytes) (x : d.Obj) (h : fromBytes d.read b = .ok x)
    (tail : Bytes) : fromBytes d.read (b ++ tail) = .ok x := by
  obtain ⟨n, hp⟩ := parseAt_of_fromBytes h
  obtain ⟨hn, hs, _⟩ := streams_all d hd b x n hp
  have := hs (b.drop n ++ tail)
  rw [← List.append_assoc, List.take_append_drop] at this
  rw [fromBytes_parseAt, this]
  rfl

example (tail : Bytes) : fromBytes RadioIp.read ([10, 0, 0, 80] ++ tail) = .ok ⟨10, 0, 0, 80⟩ :=
  C41_trailing ⟨"Hytera.RadioIp", _, RadioIp.read⟩ (List.mem_of_getElem? (i := 55) rfl) [10, 0, 0, 80] _ (by decide +kernel) tail

/-- C41. The result depends only on the `n` bytes the decoder has consumed (the position of the stream after the object), and
the position after the object is the same whatever follows. -/
theorem C41_consumed (d : Decoder) (hd : d ∈ pduDecoders) (b : Bytes) (x : d.Obj) (n : Nat)
    (h : parseAt d.read b 0 = .ok (x, n)) :
    n ≤ b.length ∧ ∀ tail, parseAt d.read (b.take n ++ tail) 0 = .ok (x, n) :=
  ⟨(streams_all d hd b x n h).1, (streams_all d hd b x n h).2.1⟩

example (tail : Bytes) : parseAt RadioIp.read ([10, 0, 0, 80] ++ tail) 0 = .ok (⟨10, 0, 0, 80⟩, 4) :=
  (C41_consumed ⟨"Hytera.RadioIp", _, RadioIp.read⟩ (List.mem_of_getElem? (i := 55) rfl) [10, 0, 0, 80, 1] _ 4 (by decide +kernel)).2 tail

/-- C42. Every proper prefix of the bytes a decoder has consumed is rejected with EOFError. -/
theorem C42_truncated (d : Decoder) (hd : d ∈ pduDecoders) (b : Bytes) (x : d.Obj) (n : Nat)
    (h : parseAt d.read b 0 = .ok (x, n)) (k : Nat) (hk : k < n) : fromBytes d.read (b.take k) = .error .eof :=
  (streams_all d hd b x n h).2.2 k hk

example : fromBytes RadioIp.read ([10, 0, 0, 80, 1].take 3) = .error .eof :=
  C42_truncated ⟨"Hytera.RadioIp", _, RadioIp.read⟩ (List.mem_of_getElem? (i := 55) rfl) [10, 0, 0, 80, 1] ⟨10, 0, 0, 80⟩ 4
    (by decide +kernel) 3 (by decide)

/-- C42. In terms of `from_bytes` only: if `b` is accepted and its prefix of length `k` is not, then the exception is EOFError. -/
theorem C42_prefix (d : Decoder) (hd : d ∈ pduDecoders) (b : Bytes) (x : d.Obj) (h : fromBytes d.read b = .ok x) (k : Nat) :
    fromBytes d.read (b.take k) = .ok x ∨ fromBytes d.read (b.take k) = .error .eof := by
  obtain ⟨n, hp⟩ := parseAt_of_fromBytes h
  by_cases hk : k < n
  · exact .inr (C42_truncated d hd b x n hp k hk)
  · left
    obtain ⟨_, hs⟩ := C41_consumed d hd b x n hp
    have := hs ((b.take k).drop n)
    have he : b.take n ++ (b.take k).drop n = b.take k := by
      have : b.take n = (b.take k).take n := by rw [List.take_take, Nat.min_eq_left (by omega)]
      rw [this, List.take_append_drop]
    rw [he] at this
    rw [fromBytes_parseAt, this]
    rfl

example (k : Nat) : fromBytes RadioIp.read ([10, 0, 0, 80, 1].take k) = .ok ⟨10, 0, 0, 80⟩ ∨
    fromBytes RadioIp.read ([10, 0, 0, 80, 1].take k) = .error .eof :=
  C42_prefix ⟨"Hytera.RadioIp", _, RadioIp.read⟩ (List.mem_of_getElem? (i := 55) rfl) [10, 0, 0, 80, 1] ⟨10, 0, 0, 80⟩
    (by decide +kernel) k

/-- A concrete case: an 11 byte delivery state report. -/
example : ∃ x, fromBytes DataDeliveryStates.read [0, 1, 0, 5, 10, 0, 0, 1, 0, 0, 9] = .ok x ∧
    fromBytes DataDeliveryStates.read ([0, 1, 0, 5, 10, 0, 0, 1, 0, 0, 9] ++ [1, 2, 3]) = .ok x ∧
    fromBytes DataDeliveryStates.read ([0, 1, 0, 5, 10, 0, 0, 1, 0, 0, 9].take 10) = .error .eof := by
  refine ⟨_, DataDeliveryStates.fixed.fromBytes _, ?_, ?_⟩
  · rfl
  · rfl

end Dmr
