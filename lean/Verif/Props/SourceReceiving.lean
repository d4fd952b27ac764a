import Verif.Props.SourceStreams
import Verif.Props.Receiving
/-
C56, as written in the Python source and run statement by statement.
-/

set_option autoImplicit false

namespace Dmr.Py

/-- `X.from_bytes` of the source, for all bytes of a stream: the value and the objects, or the exception; and the stream in the end. -/
def decode (n : Nat) (name : String) : Rd (Val × List Obj) := fun io =>
  match Py.fromBytes library n name io.buf with
  | .ok v σ => (.ok (v, σ.heap), σ.streams.headD io)
  | .raise e σ => (.error e, σ.streams.headD io)

variable {n : Nat}

theorem decode_eq (d : Decoder) (hd : d ∈ pduDecoders) (hn : 13 ≤ n) (b : Bytes) (io : Stream) (hb : io.buf = b) :
    (∃ x s make, d.read (Stream.new b) = (.ok x, s) ∧ (∀ w, d.read (Stream.new (b ++ w)) = (.ok x, s.more w) ∧ ∀ io', io'.buf = b ++ w → decode n d.name io' = (.ok (.obj 0, make), s.more w)) ∧
      decode n d.name io = (.ok (.obj 0, make), s) ∧ Py.fromBytes library n d.name b = .ok (.obj 0) ⟨make, [s]⟩) ∨
    ∃ e s, d.read (Stream.new b) = (.error e, s) ∧ decode n d.name io = (.error e, s) ∧
      ∀ w, e = .eof ∨ ∀ io', io'.buf = b ++ w → decode n d.name io' = (.error e, s.more w) := by
  obtain ⟨v', hv⟩ := pduDecoders_in_table d hd
  rcases hx : d.read (Stream.new b) with ⟨e | x, s⟩
  · refine .inr ⟨e, s, rfl, ?_, fun w => ?_⟩
    · unfold decode
      rw [hb, C58_raises d.name _ hv n hn b e s hx]
      rfl
    · rcases Receiving.grows_new (Receiving.pdu_grows d hd) b w with h | h
      · rw [hx] at h
        injection h with h
        exact .inl h
      · refine .inr fun io' hb' => ?_
        rw [hx] at h
        unfold decode
        rw [hb', C58_raises d.name _ hv n hn _ e _ h]
        rfl
  · obtain ⟨heap, h1, -⟩ := C58_returns d.name _ hv b x s hx
    refine .inl ⟨x, s, heap, rfl, fun w => ⟨?_, fun io' hb' => ?_⟩, ?_, h1 n hn⟩
    · rcases Receiving.grows_new (Receiving.pdu_grows d hd) b w with h | h
      · rw [hx] at h; cases h
      · rw [h, hx]
    · unfold decode
      rw [hb', C63_trailing d hd n hn b _ _ _ (h1 n hn) w]
      rfl
    · unfold decode
      rw [hb, h1 n hn]
      rfl

theorem decode_grows (d : Decoder) (hd : d ∈ pduDecoders) (hn : 13 ≤ n) : Grows (decode n d.name) := by
  intro io w
  rcases decode_eq d hd hn io.buf io rfl with ⟨x, s, make, -, h1, h2, -⟩ | ⟨e, s, -, h2, h1⟩
  · right
    rw [h2, (h1 w).2 (io.more w) rfl]
  · rw [h2]
    rcases h1 w with rfl | h1
    · exact .inl rfl
    · exact .inr (h1 (io.more w) rfl)

theorem empty_of (d : Decoder) (hd : d ∈ pduDecoders) (hn : 13 ≤ n) (h0 : ∃ σ, Py.fromBytes library n d.name [] = .raise .eof σ) :
    Dmr.fromBytes d.read [] = .error .eof := by
  obtain ⟨σ, h0⟩ := h0
  rcases decode_eq d hd hn [] (Stream.new []) rfl with ⟨x, s, make, -, -, -, h3⟩ | ⟨e, s, h1, h2, -⟩
  · rw [h0] at h3; cases h3
  · unfold decode at h2
    rw [show (Stream.new []).buf = [] from rfl, h0] at h2
    injection h2 with h2
    injection h2 with h2
    unfold Dmr.fromBytes
    rw [h1, h2]

theorem decode_sized (d : Decoder) (hd : d ∈ pduDecoders) (hn : 13 ≤ n) (h0 : ∃ σ, Py.fromBytes library n d.name [] = .raise .eof σ) :
    Receiving.Sized (decode n d.name) := by
  intro b x s h
  rcases decode_eq d hd hn b (Stream.new b) rfl with ⟨y, s', make, h1, -, h2, -⟩ | ⟨e, s', -, h2, -⟩
  · rw [h2] at h
    injection h with _ h
    subst h
    exact Receiving.sized_of d hd (empty_of d hd hn h0) b y s' h1
  · rw [h2] at h
    injection h with h
    cases h

/-- C56, of the source. All classes but seven without any field raise EOFError on the empty input, as the other theorems ask. -/
theorem C56_source_empty (d : Decoder) (hd : d ∈ pduDecoders) (hm : d.name ∉ emptyClasses) (hn : 13 ≤ n) :
    ∃ σ, Py.fromBytes library n d.name [] = .raise .eof σ := by
  obtain ⟨v', hv⟩ := pduDecoders_in_table d hd
  have h := C56_empty d hd hm
  unfold Dmr.fromBytes at h
  rcases hx : d.read (Stream.new []) with ⟨e | x, s⟩ <;> rw [hx] at h <;> cases h
  exact ⟨_, C58_raises d.name _ hv n hn [] _ s hx⟩

/-- C56, of the source. An exception other than EOFError is final: whatever bytes follow, the same exception is raised. -/
theorem C56_source_final (d : Decoder) (hd : d ∈ pduDecoders) (hn : 13 ≤ n) (b : Bytes) (e : PyErr) (σ : State)
    (h : Py.fromBytes library n d.name b = .raise e σ) (he : e ≠ .eof) (tail : Bytes) : ∃ σ', Py.fromBytes library n d.name (b ++ tail) = .raise e σ' := by
  rcases decode_eq d hd hn b (Stream.new b) rfl with ⟨x, s, make, -, -, -, h3⟩ | ⟨e', s, -, h2, h1⟩
  · rw [h] at h3; cases h3
  · unfold decode at h2
    rw [show (Stream.new b).buf = b from rfl, h] at h2
    injection h2 with h2
    injection h2 with h2
    subst h2
    have h3 := (h1 tail).resolve_left he (Stream.new (b ++ tail)) rfl
    unfold decode at h3
    rw [show (Stream.new (b ++ tail)).buf = b ++ tail from rfl] at h3
    cases hr : Py.fromBytes library n d.name (b ++ tail) with
    | ok v σ' => rw [hr] at h3; injection h3 with h3; cases h3
    | raise e' σ' =>
      rw [hr] at h3
      injection h3 with h3
      injection h3 with h3
      subst h3
      exact ⟨σ', rfl⟩

/-- C56, of the source. A program collects bytes, calls `from_bytes` on what it has got, takes what is left behind `_io.pos()` as the next bytes, and waits for
more when it gets EOFError. However the bytes are cut into pieces, it gets the same objects with the same attributes, in the same order, as if they had
arrived in one piece, is left with the same bytes, and stops with the same exception, if it does. -/
theorem C56_source_pieces (d : Decoder) (hd : d ∈ pduDecoders) (hn : 13 ≤ n) (h0 : ∃ σ, Py.fromBytes library n d.name [] = .raise .eof σ)
    (pieces : List Bytes) : pieces.foldl (Receiver.feed (decode n d.name)) .start = Receiver.feed (decode n d.name) .start pieces.flatten := by
  have hg := decode_grows d hd hn
  have hs := decode_sized d hd hn h0
  have h00 : Dmr.fromBytes (decode n d.name) [] = .error .eof := by
    obtain ⟨σ, h0⟩ := h0
    unfold Dmr.fromBytes decode
    rw [show (Stream.new []).buf = [] from rfl, h0]
  suffices h : ∀ v : Bytes, pieces.foldl (Receiver.feed (decode n d.name)) (Receiver.feed (decode n d.name) .start v) =
      Receiver.feed (decode n d.name) .start (v ++ pieces.flatten) by
    have := h []
    rw [Receiving.start_feed_nil h00] at this
    exact this
  induction pieces with
  | nil => intro v; rw [List.flatten_nil, List.append_nil]; rfl
  | cons p ps ih =>
    intro v
    rw [List.foldl_cons, Receiving.feed_feed hg hs, ih, List.flatten_cons, List.append_assoc]

/-- C56, of the source. Complete messages, which `from_bytes` accepts and uses up, followed by bytes on which it raises, cut into any pieces: the program gets the
objects that `from_bytes` makes of each message alone, in order, and keeps the rest. -/
theorem C56_source_messages (d : Decoder) (hd : d ∈ pduDecoders) (hn : 13 ≤ n) (h0 : ∃ σ, Py.fromBytes library n d.name [] = .raise .eof σ)
    (sent : List (Bytes × Val × List Obj))
    (complete : ∀ m ∈ sent, ∃ s, Py.fromBytes library n d.name m.1 = .ok m.2.1 ⟨m.2.2, [s]⟩ ∧ s.pos = m.1.length)
    (rest : Bytes) (e : PyErr) (σ : State) (he : Py.fromBytes library n d.name rest = .raise e σ)
    (pieces : List Bytes) (h : pieces.flatten = (sent.map Prod.fst).flatten ++ rest) :
    pieces.foldl (Receiver.feed (decode n d.name)) .start = ⟨sent.map Prod.snd, rest, if e = .eof then none else some e⟩ := by
  rw [C56_source_pieces d hd hn h0, h]
  have hs := decode_sized d hd hn h0
  clear h
  have key : ∀ f, ((sent.map Prod.fst).flatten ++ rest).length < f →
      takeMessages (decode n d.name) f ((sent.map Prod.fst).flatten ++ rest) = ⟨sent.map Prod.snd, rest, if e = .eof then none else some e⟩ := by
    induction sent with
    | nil =>
      intro f hf
      obtain ⟨f, rfl⟩ : ∃ f', f = f' + 1 := ⟨f - 1, by omega⟩
      simp only [List.map_nil, List.flatten_nil, List.nil_append]
      have hr : decode n d.name (Stream.new rest) = (.error e, σ.streams.headD (Stream.new rest)) := by
        unfold decode
        rw [show (Stream.new rest).buf = rest from rfl, he]
      rw [takeMessages, hr]
    | cons m ms ih =>
      intro f hf
      obtain ⟨f, rfl⟩ : ∃ f', f = f' + 1 := ⟨f - 1, by omega⟩
      obtain ⟨s, hm, hp⟩ := complete m List.mem_cons_self
      simp only [List.map_cons, List.flatten_cons, List.append_assoc] at hf ⊢
      have hr : decode n d.name (Stream.new (m.1 ++ ((ms.map Prod.fst).flatten ++ rest))) = (.ok m.2, s.more ((ms.map Prod.fst).flatten ++ rest)) := by
        unfold decode
        rw [show (Stream.new (m.1 ++ ((ms.map Prod.fst).flatten ++ rest))).buf = m.1 ++ ((ms.map Prod.fst).flatten ++ rest) from rfl, C63_trailing d hd n hn m.1 _ _ s hm]
        rfl
      have h1 := hs _ _ _ hr
      have hp' : (s.more ((ms.map Prod.fst).flatten ++ rest)).pos = m.1.length := hp
      rw [takeMessages, hr]
      dsimp only
      rw [hp', List.drop_left]
      rw [hp'] at h1
      rw [List.length_append] at hf
      rw [ih (fun m' hm' => complete m' (List.mem_cons_of_mem _ hm')) f (by omega)]
  unfold Receiver.feed Receiver.start
  dsimp only
  simp only [List.nil_append]
  rw [key _ (by omega)]

/-- Two radio addresses and a bit of a third, in pieces of 3, 0, 6 and 1 bytes. -/
example : [[10, 0, 0], [], [80, 10, 0, 0, 80, 10], [0]].foldl (Receiver.feed (decode 13 "Hytera.RadioIp")) .start =
    ⟨[(.obj 0, [anAddress]), (.obj 0, [anAddress])], [10, 0], none⟩ := by
  obtain ⟨s, hs⟩ := C63_truncated addresses (List.mem_append_left _ addresses_sequential) 13 (by decide) _ _ _ _ anAddress_runs 2 (by decide)
  exact C56_source_messages addresses (List.mem_append_left _ addresses_sequential) (by decide) (C56_source_empty addresses (List.mem_append_left _ addresses_sequential) (by decide) (by decide))
    [([10, 0, 0, 80], .obj 0, [anAddress]), ([10, 0, 0, 80], .obj 0, [anAddress])] (by
      intro m hm
      rcases List.mem_cons.1 hm with rfl | hm
      · exact ⟨_, anAddress_runs, rfl⟩
      · rw [List.mem_singleton.1 hm]
        exact ⟨_, anAddress_runs, rfl⟩) [10, 0] .eof _ hs _ rfl

end Dmr.Py
