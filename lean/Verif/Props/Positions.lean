import Verif.ShiftList
import Verif.TidyList
import Verif.Props.Streaming
/-
C48: a structure decodes in the same way wherever in a stream it starts; the classes for which this is false.
C49: structures that follow each other in one stream.
-/

namespace Dmr

open Hytera Etsi Homebrew Motorola

/-! ### C48 -/

/-- What the property says of a decoder: with any bytes `pre` in front of the stream, starting that many bytes later gives the same
object or the same exception, and the stream is left that many bytes later. -/
def PositionIndependent (r : Rd α) : Prop :=
  ∀ (pre b : Bytes) (q : Nat), parseAt r (pre ++ b) (pre.length + q) = (parseAt r b q).map fun x => (x.1, pre.length + x.2)

theorem Shifts.positionIndependent {r : Rd α} (h : Shifts r) : PositionIndependent r := by
  intro pre b q
  have e := h { buf := b, pos := q, bits := 0, bitsLeft := 0 } pre
  change r { buf := pre ++ b, pos := pre.length + q, bits := 0, bitsLeft := 0 } = _ at e
  unfold parseAt Rd.eval
  rw [e]
  rcases r { buf := b, pos := q, bits := 0, bitsLeft := 0 } with ⟨_ | a, s1⟩ <;> rfl

/-- C48. For the 148 classes of `relocatableDecoders` (Verif/ShiftList.lean), the place of the structure in the stream makes no
difference. -/
theorem C48_position (d : Decoder) (hd : d ∈ relocatableDecoders) (pre b : Bytes) (q : Nat) :
    parseAt d.read (pre ++ b) (pre.length + q) = (parseAt d.read b q).map fun x => (x.1, pre.length + x.2) :=
  (relocatableDecoders_shift d hd).positionIndependent pre b q

example := C48_position ⟨"Etsi.DmrCsbk", _, Etsi.DmrCsbk.read⟩ (List.mem_of_getElem? (i := 7) rfl)

/-- C48. In particular a structure after other bytes decodes to what `from_bytes` gives for it alone, exceptions included. -/
theorem C48_embedded (d : Decoder) (hd : d ∈ relocatableDecoders) (pre b : Bytes) :
    (parseAt d.read (pre ++ b) pre.length).map Prod.fst = fromBytes d.read b := by
  have := C48_position d hd pre b 0
  rw [Nat.add_zero] at this
  rw [this, fromBytes_parseAt]
  rcases parseAt d.read b 0 with _ | ⟨_, _⟩ <;> rfl

example := C48_embedded ⟨"Etsi.DmrCsbk", _, Etsi.DmrCsbk.read⟩ (List.mem_of_getElem? (i := 7) rfl)

/-- C48. A Hytera application message after other bytes decodes to what `from_bytes` gives for it alone, unless it is a telemetry
message. -/
theorem C48_application (pre b : Bytes) (x : HyteraDmrApplicationProtocol) (n : Nat)
    (h : parseAt HyteraDmrApplicationProtocol.read b 0 = .ok (x, n)) (hx : x.message_header ≠ .known .telemetry_protocol) :
    parseAt HyteraDmrApplicationProtocol.read (pre ++ b) pre.length = .ok (x, pre.length + n) := by
  unfold parseAt Rd.eval at h ⊢
  rcases e : HyteraDmrApplicationProtocol.read { buf := b, pos := 0, bits := 0, bitsLeft := 0 } with ⟨_ | y, s1⟩
  · rw [e] at h; cases h
  rw [e] at h
  cases h
  have e1 := HyteraDmrApplicationProtocol.read_shiftsAt (s := { buf := b, pos := 0, bits := 0, bitsLeft := 0 })
    (fun x' s' e' => by rw [e] at e'; cases e'; exact hx) ⟨_, _, e⟩ pre
  change HyteraDmrApplicationProtocol.read { buf := pre ++ b, pos := pre.length, bits := 0, bitsLeft := 0 } = _ at e1
  rw [e1, e]
  rfl

/-- A framed radio registration (offline) behind any other bytes. -/
example (pre : Bytes) : ∃ x, parseAt HyteraDmrApplicationProtocol.read (pre ++ [0x11, 0, 3, 0, 4, 10, 0, 0, 80, 0, 3]) pre.length =
    .ok (x, pre.length + 11) := by
  refine ⟨_, C48_application pre _ _ 11 rfl ?_⟩
  decide

/-- One pair of streams shows that the place matters. -/
theorem PositionIndependent.not {r : Rd α} (pre b : Bytes)
    (h : (parseAt r (pre ++ b) (pre.length + 0)).toBool ≠ (parseAt r b 0).toBool) : ¬ PositionIndependent r := by
  intro hr
  rw [hr pre b 0] at h
  apply h
  rcases parseAt r b 0 with _ | _ <;> rfl

/-- The classes that look at the start or the size of the whole stream. -/
def positionDependentDecoders : List Decoder := [
  ⟨"Hytera.TelemetryProtocol", _, TelemetryProtocol.read⟩,
  ⟨"Hytera.HyteraDmrApplicationProtocol", _, HyteraDmrApplicationProtocol.read⟩,
  ⟨"Hytera.HyteraRadioNetworkProtocol", _, HyteraRadioNetworkProtocol.read⟩,
  ⟨"Hytera.HyteraSimpleTransportReliabilityProtocol", _, HyteraSimpleTransportReliabilityProtocol.read⟩,
  ⟨"Hytera.IpSiteConnectHeartbeat", _, IpSiteConnectHeartbeat.read⟩,
  ⟨"Etsi.FullLinkControl", _, FullLinkControl.read⟩,
  ⟨"Homebrew.Homebrew2015", _, Homebrew2015.read⟩,
  ⟨"Homebrew.Mmdvm2020", _, Mmdvm2020.read⟩]

/-- C48. For the remaining eight classes the place of the structure in the stream does matter. -/
theorem C48_dependent : ∀ d ∈ positionDependentDecoders, ¬ PositionIndependent d.read := by
  unfold positionDependentDecoders
  refine List.forall_mem_cons.2 ⟨PositionIndependent.not [0xA0, 0x01] [0xFF, 0xFF, 0, 0] (by decide +kernel), ?_⟩
  refine List.forall_mem_cons.2 ⟨PositionIndependent.not [0xA0, 0x01] [0x12, 0xFF, 0xFF, 0, 0, 0, 3] (by decide +kernel), ?_⟩
  refine List.forall_mem_cons.2 ⟨PositionIndependent.not [0xA0, 0x01] [0x7E, 4, 0, 0, 0x20, 0x10, 0, 1, 0, 19, 0, 0, 0x12, 0xFF, 0xFF, 0, 0, 0, 3] (by decide +kernel), ?_⟩
  refine List.forall_mem_cons.2 ⟨PositionIndependent.not [0xA0, 0x01] [0x32, 0x42, 0, 0, 0, 0, 0x12, 0xFF, 0xFF, 0, 0, 0, 3] (by decide +kernel), ?_⟩
  refine List.forall_mem_cons.2 ⟨PositionIndependent.not [0] [5] (by decide +kernel), ?_⟩
  refine List.forall_mem_cons.2 ⟨PositionIndependent.not [0, 0] [0, 0, 0, 0, 0, 1, 0, 0, 2] (by decide +kernel), ?_⟩
  refine List.forall_mem_cons.2 ⟨PositionIndependent.not [0, 0, 0, 0, 0] [0x52, 0x50, 0x54, 0x43, 0x4C, 0, 0, 0, 0] (by decide +kernel), ?_⟩
  refine List.forall_mem_cons.2 ⟨PositionIndependent.not [0, 0, 0, 0, 0] [0x52, 0x50, 0x54, 0x43, 0x4C, 0, 0, 0, 0] (by decide +kernel), ?_⟩
  exact List.forall_mem_nil _

example : ¬ PositionIndependent Homebrew2015.read :=
  C48_dependent ⟨"Homebrew.Homebrew2015", _, Homebrew2015.read⟩ (List.mem_of_getElem? (i := 6) rfl)

/-- A concrete case: a radio address after three other bytes. -/
example : parseAt RadioIp.read ([1, 2, 3] ++ [10, 0, 0, 80]) 3 = .ok ({ subnet := 10, radio_id_1 := 0, radio_id_2 := 0, radio_id_3 := 80 }, 7) := by decide +kernel

/-! ### C49 -/

/-- A structure to be read: the class, the bytes, the object. -/
structure Message where
  decoder : Decoder
  bytes : Bytes
  object : decoder.Obj

/-- Read alone, the bytes give the object and the stream is then at its end (`is_eof()`). -/
def Message.Complete (m : Message) : Prop :=
  ∃ s, m.decoder.read (Stream.new m.bytes) = (.ok m.object, s) ∧ isEof s = (.ok true, s)

/-- Construct objects of the given classes one after another on the same stream, up to the first exception: the objects, the
exception if there was one, and the stream afterwards. -/
def readInTurn : List Decoder → Stream → List (Σ d : Decoder, d.Obj) × Option PyErr × Stream
  | [], s => ([], none, s)
  | d :: ds, s =>
    match d.read s with
    | (.error e, s1) => ([], some e, s1)
    | (.ok x, s1) => (⟨d, x⟩ :: (readInTurn ds s1).1, (readInTurn ds s1).2)

/-- The objects of the messages. -/
def allObjects (ms : List Message) : List (Σ d : Decoder, d.Obj) := ms.map fun m => ⟨m.decoder, m.object⟩

/-- The bytes of all messages, one after another. -/
def allBytes (ms : List Message) : Bytes := (ms.map (·.bytes)).flatten

theorem Message.Complete.run {m : Message} (h : m.Complete) (hd : m.decoder ∈ sequentialDecoders) (buf : Bytes) (q : Nat) (tail : Bytes)
    (hq : buf.drop q = m.bytes ++ tail) :
    m.decoder.read { buf := buf, pos := q, bits := 0, bitsLeft := 0 } =
      (.ok m.object, { buf := buf, pos := q + m.bytes.length, bits := 0, bitsLeft := 0 }) := by
  obtain ⟨s, e, he⟩ := h
  have ht := sequentialDecoders_tidy _ hd _ _ _ (fun _ => rfl : (Stream.new m.bytes).Tidy) e
  obtain ⟨c, h1, h2, h3, h4⟩ := sequentialDecoders_local (G := AnyBuf) _ hd _ _ _ e
  have hb : s.bitsLeft = 0 ∧ s.buf.length ≤ s.pos := by
    unfold isEof at he
    split at he
    · cases he
    · next hb => exact ⟨by omega, of_decide_eq_true (by injection (congrArg Prod.fst he))⟩
  have hr : s.rest = [] := List.drop_eq_nil_of_le hb.2
  have hc : m.bytes = c := by rw [hr, List.append_nil] at h3; exact h3
  have := (h4 { buf := buf, pos := q, bits := 0, bitsLeft := 0 } trivial rfl rfl).1 tail (by rw [← hc]; exact hq)
  rw [this, hb.1, ht hb.1, hc]

theorem readInTurn_run (ms : List Message) (h : ∀ m ∈ ms, m.decoder ∈ sequentialDecoders ∧ m.Complete) (more : List Decoder)
    (buf : Bytes) : ∀ (q : Nat) (tail : Bytes), buf.drop q = allBytes ms ++ tail →
      readInTurn (ms.map (·.decoder) ++ more) { buf := buf, pos := q, bits := 0, bitsLeft := 0 } =
        (allObjects ms ++ (readInTurn more { buf := buf, pos := q + (allBytes ms).length, bits := 0, bitsLeft := 0 }).1,
          (readInTurn more { buf := buf, pos := q + (allBytes ms).length, bits := 0, bitsLeft := 0 }).2) := by
  induction ms with
  | nil => intro q tail _; rfl
  | cons m ms ih =>
    intro q tail hq
    have hq' : buf.drop q = m.bytes ++ (allBytes ms ++ tail) := by
      rw [hq]; simp only [allBytes, List.map_cons, List.flatten_cons, List.append_assoc]
    obtain ⟨hd, hm⟩ := h m (List.mem_cons_self ..)
    have h1 := hm.run hd buf q _ hq'
    have h2 := ih (fun m' hm' => h m' (List.mem_cons_of_mem _ hm')) (q + m.bytes.length) tail
      (by rw [← List.drop_drop, hq', List.drop_left])
    rw [List.map_cons, List.cons_append, readInTurn, h1]
    simp only [h2, allObjects, allBytes, List.map_cons, List.flatten_cons, List.length_append, Nat.add_assoc, List.cons_append]

/-- C49. Structures that follow each other in a stream decode, read in turn, to what each gives alone; before and after them there
may be anything, and the stream is left right after the last one. -/
theorem C49_in_turn (ms : List Message) (h : ∀ m ∈ ms, m.decoder ∈ sequentialDecoders ∧ m.Complete) (pre post : Bytes) :
    readInTurn (ms.map (·.decoder)) { buf := pre ++ allBytes ms ++ post, pos := pre.length, bits := 0, bitsLeft := 0 } =
      (allObjects ms, none,
        { buf := pre ++ allBytes ms ++ post, pos := pre.length + (allBytes ms).length, bits := 0, bitsLeft := 0 }) := by
  have := readInTurn_run ms h [] (pre ++ allBytes ms ++ post) pre.length post (by rw [List.append_assoc, List.drop_left])
  rw [List.append_nil] at this
  rw [this, readInTurn, List.append_nil]

/-- C49. If the stream ends inside one of them, the ones before are decoded and that one raises EOFError. -/
theorem C49_cut (ms : List Message) (m : Message) (later : List Decoder)
    (h : ∀ m' ∈ ms ++ [m], m'.decoder ∈ sequentialDecoders ∧ m'.Complete) (k : Nat) (hk : k < m.bytes.length) :
    (readInTurn (ms.map (·.decoder) ++ m.decoder :: later) (Stream.new (allBytes ms ++ m.bytes.take k))).1 = allObjects ms ∧
    (readInTurn (ms.map (·.decoder) ++ m.decoder :: later) (Stream.new (allBytes ms ++ m.bytes.take k))).2.1 = some .eof := by
  have h0 := readInTurn_run ms (fun m' hm' => h m' (List.mem_append_left _ hm')) (m.decoder :: later)
    (allBytes ms ++ m.bytes.take k) 0 (m.bytes.take k) (by rw [List.drop_zero])
  obtain ⟨hd, s, e, he⟩ := h m (List.mem_append_right _ (List.mem_singleton_self _))
  obtain ⟨c, _, _, h3, h4⟩ := sequentialDecoders_local (G := AnyBuf) _ hd _ _ _ e
  have hb : s.buf.length ≤ s.pos := by
    unfold isEof at he
    split at he
    · cases he
    · exact of_decide_eq_true (by injection (congrArg Prod.fst he))
  have hr : s.rest = [] := List.drop_eq_nil_of_le hb
  have hc : m.bytes = c := by rw [hr, List.append_nil] at h3; exact h3
  have hs := (h4 { buf := allBytes ms ++ m.bytes.take k, pos := 0 + (allBytes ms).length, bits := 0, bitsLeft := 0 } trivial rfl rfl).2
    (m.bytes[k]) (m.bytes.drop (k + 1)) (by
      show _ = (allBytes ms ++ m.bytes.take k).drop (0 + (allBytes ms).length) ++ _
      rw [Nat.zero_add, List.drop_left, ← List.drop_eq_getElem_cons, List.take_append_drop, hc])
  change readInTurn _ (Stream.new _) = _ at h0
  have e2 : readInTurn (m.decoder :: later)
      { buf := allBytes ms ++ m.bytes.take k, pos := 0 + (allBytes ms).length, bits := 0, bitsLeft := 0 } =
      ([], some .eof, (m.decoder.read { buf := allBytes ms ++ m.bytes.take k, pos := 0 + (allBytes ms).length, bits := 0, bitsLeft := 0 }).2) := by
    rw [readInTurn]
    rcases e3 : m.decoder.read { buf := allBytes ms ++ m.bytes.take k, pos := 0 + (allBytes ms).length, bits := 0, bitsLeft := 0 } with ⟨e4 | _, _⟩
    · rw [e3] at hs; cases hs; rfl
    · rw [e3] at hs; cases hs
  rw [h0, e2]
  exact ⟨List.append_nil _, rfl⟩

/-- A delivery state report, then a radio address. -/
def twoMessages : List Message := [
  ⟨⟨"Hytera.DataDeliveryStates", _, DataDeliveryStates.read⟩, [0, 1, 0, 5, 10, 0, 0, 1, 0, 0, 9],
    DataDeliveryStates.spec [0, 1, 0, 5, 10, 0, 0, 1, 0, 0, 9] 0⟩,
  ⟨⟨"Hytera.RadioIp", _, RadioIp.read⟩, [10, 0, 0, 80], { subnet := 10, radio_id_1 := 0, radio_id_2 := 0, radio_id_3 := 80 }⟩]

/-- A concrete case of the hypotheses. -/
example : ∀ m ∈ twoMessages, m.decoder ∈ sequentialDecoders ∧ m.Complete := by
  unfold twoMessages
  refine List.forall_mem_cons.2 ⟨⟨?_, ?_⟩, List.forall_mem_cons.2 ⟨⟨?_, ?_⟩, List.forall_mem_nil _⟩⟩
  · exact List.mem_of_getElem? (i := 56) rfl
  · exact ⟨_, rfl, rfl⟩
  · exact List.mem_of_getElem? (i := 55) rfl
  · exact ⟨_, rfl, rfl⟩

end Dmr
