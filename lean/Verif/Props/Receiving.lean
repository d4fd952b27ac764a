import Verif.GrowAll
import Verif.Props.Streaming
/-
C56: receiving in pieces. A receiver that collects bytes, tries to decode a message from the front of what it has got, and waits for
more bytes when the decoder raises EOFError, gets the same messages however the bytes are cut into pieces.
-/

set_option autoImplicit false

namespace Dmr

open Hytera

/-! ### The receiver -/

/-- What a receiver has got: messages, bytes that are not yet (or cannot be) decoded, the exception if one other than EOFError was
raised. -/
structure Receiver (α : Type) where
  messages : List α
  pending : Bytes
  failed : Option PyErr

/-- Nothing yet. -/
def Receiver.start {α : Type} : Receiver α := ⟨[], [], none⟩

/-- Take messages from the front of the bytes until the decoder raises (at most `n` messages). -/
def takeMessages {α : Type} (read : Rd α) : Nat → Bytes → Receiver α
  | 0, b => ⟨[], b, none⟩
  | n + 1, b =>
    match read (Stream.new b) with
    | (.ok x, io) =>
      let r := takeMessages read n (b.drop io.pos)
      ⟨x :: r.messages, r.pending, r.failed⟩
    | (.error e, _) => ⟨[], b, if e = .eof then none else some e⟩

/-- A piece of the stream arrives. After an exception other than EOFError the bytes are kept, but not decoded any more. -/
def Receiver.feed {α : Type} (read : Rd α) (r : Receiver α) (piece : Bytes) : Receiver α :=
  match r.failed with
  | some e => ⟨r.messages, r.pending ++ piece, some e⟩
  | none =>
    let b := r.pending ++ piece
    let t := takeMessages read (b.length + 1) b
    ⟨r.messages ++ t.messages, t.pending, t.failed⟩

/-! ### Proofs -/

namespace Receiving

variable {α : Type} {read : Rd α}

/-- A message takes at least one byte, and only bytes that are there. -/
def Sized (read : Rd α) : Prop := ∀ b x s, read (Stream.new b) = (.ok x, s) → 0 < s.pos ∧ s.pos ≤ b.length

theorem grows_new (hg : Grows read) (b w : Bytes) :
    (read (Stream.new b)).1 = .error .eof ∨
    read (Stream.new (b ++ w)) = ((read (Stream.new b)).1, (read (Stream.new b)).2.more w) := hg (Stream.new b) w

theorem fuel (hs : Sized read) (f g : Nat) (b : Bytes) (hf : b.length < f) (hh : b.length < g) :
    takeMessages read f b = takeMessages read g b := by
  induction f generalizing g b with
  | zero => omega
  | succ f ih =>
    obtain ⟨g, rfl⟩ : ∃ g', g = g' + 1 := ⟨g - 1, by omega⟩
    unfold takeMessages
    rcases h : read (Stream.new b) with ⟨e | x, s⟩
    · rfl
    · obtain ⟨h1, h2⟩ := hs b x s h
      dsimp only
      rw [ih g (b.drop s.pos) (by rw [List.length_drop]; omega) (by rw [List.length_drop]; omega)]

theorem take_more (hg : Grows read) (hs : Sized read) (f : Nat) (b w : Bytes) (hf : b.length < f) (g : Nat) (hgl : (b ++ w).length < g) :
    takeMessages read g (b ++ w) = (takeMessages read f b).feed read w := by
  induction f generalizing g b with
  | zero => omega
  | succ f ih =>
    obtain ⟨g, rfl⟩ : ∃ g', g = g' + 1 := ⟨g - 1, by omega⟩
    rcases h : read (Stream.new b) with ⟨e | x, s⟩
    · by_cases he : e = .eof
      · have e1 : takeMessages read (f + 1) b = ⟨[], b, none⟩ := by
          rw [takeMessages, h]
          dsimp only
          rw [if_pos he]
        rw [e1]
        unfold Receiver.feed
        dsimp only
        rw [fuel hs (g + 1) ((b ++ w).length + 1) (b ++ w) hgl (by omega)]
        rfl
      · have e1 : takeMessages read (f + 1) b = ⟨[], b, some e⟩ := by
          rw [takeMessages, h]
          dsimp only
          rw [if_neg he]
        rw [e1, takeMessages]
        rcases grows_new hg b w with hh | hh
        · rw [h] at hh; cases hh; exact absurd rfl he
        · rw [hh, h]
          dsimp only
          rw [if_neg he]
          rfl
    · obtain ⟨h1, h2⟩ := hs b x s h
      have e2 : read (Stream.new (b ++ w)) = (.ok x, s.more w) := by
        rcases grows_new hg b w with hh | hh
        · rw [h] at hh; cases hh
        · rw [hh, h]
      have e1 : takeMessages read (f + 1) b = ⟨x :: (takeMessages read f (b.drop s.pos)).messages,
          (takeMessages read f (b.drop s.pos)).pending, (takeMessages read f (b.drop s.pos)).failed⟩ := by
        rw [takeMessages, h]
      have hd : (b ++ w).drop (s.more w).pos = b.drop s.pos ++ w := by
        show (b ++ w).drop s.pos = _
        rw [List.drop_append_of_le_length h2]
      rw [List.length_append] at hgl
      have := ih (b.drop s.pos) (by rw [List.length_drop]; omega) g (by rw [List.length_append, List.length_drop]; omega)
      rw [takeMessages, e2, e1]
      dsimp only
      rw [hd, this]
      unfold Receiver.feed
      dsimp only
      cases (takeMessages read f (b.drop s.pos)).failed <;> rfl

theorem feed_feed (hg : Grows read) (hs : Sized read) (r : Receiver α) (v w : Bytes) :
    (r.feed read v).feed read w = r.feed read (v ++ w) := by
  cases hr : r.failed with
  | some e => simp only [Receiver.feed, hr, List.append_assoc]
  | none =>
    have h := take_more hg hs ((r.pending ++ v).length + 1) (r.pending ++ v) w (by omega)
      ((r.pending ++ v ++ w).length + 1) (by omega)
    have e1 : r.feed read (v ++ w) = ⟨r.messages ++ (takeMessages read ((r.pending ++ v ++ w).length + 1) (r.pending ++ v ++ w)).messages,
        (takeMessages read ((r.pending ++ v ++ w).length + 1) (r.pending ++ v ++ w)).pending,
        (takeMessages read ((r.pending ++ v ++ w).length + 1) (r.pending ++ v ++ w)).failed⟩ := by
      simp only [Receiver.feed, hr, List.append_assoc]
    rw [e1, h]
    simp only [Receiver.feed, hr]
    cases (takeMessages read ((r.pending ++ v).length + 1) (r.pending ++ v)).failed with
    | some e => rfl
    | none => simp only [List.append_assoc]

theorem sized_of (d : Decoder) (hd : d ∈ pduDecoders) (h0 : fromBytes d.read [] = .error .eof) : Sized d.read := by
  intro b x s h
  have hp : parseAt d.read b 0 = .ok (x, s.pos) := by
    unfold parseAt Rd.eval
    rw [show (Stream.mk b 0 0 0) = Stream.new b from rfl, h]
    rfl
  obtain ⟨h1, h2⟩ := C41_consumed d hd b x s.pos hp
  refine ⟨?_, h1⟩
  by_contra hz
  have hz : s.pos = 0 := by omega
  have := h2 []
  rw [hz, List.take_zero, List.append_nil] at this
  rw [fromBytes_parseAt, this] at h0
  cases h0

theorem pdu_grows : ∀ d ∈ pduDecoders, Grows d.read := by
  unfold pduDecoders
  refine List.forall_mem_append.mpr ⟨sequentialDecoders_grow, ?_⟩
  exact List.forall_mem_cons.mpr ⟨Hytera.TelemetryProtocol.read_grows, List.forall_mem_cons.mpr
    ⟨Hytera.HyteraDmrApplicationProtocol.read_grows, List.forall_mem_cons.mpr
      ⟨Hytera.HyteraRadioNetworkProtocol.read_grows, List.forall_mem_nil _⟩⟩⟩

theorem start_feed_nil (h0 : fromBytes read [] = .error .eof) : (Receiver.start : Receiver α).feed read [] = .start := by
  unfold fromBytes at h0
  have h : takeMessages read 1 [] = ⟨[], [], none⟩ := by
    unfold takeMessages
    rcases h : read (Stream.new []) with ⟨e | x, s⟩ <;> rw [h] at h0 <;> cases h0
    rfl
  show Receiver.mk ([] ++ (takeMessages read 1 []).messages) _ _ = _
  rw [h]
  show Receiver.mk _ (takeMessages read 1 []).pending (takeMessages read 1 []).failed = _
  rw [h]
  rfl

end Receiving

open Receiving

/-- **C56.** An exception other than EOFError is final: whatever bytes follow, the same exception is raised. -/
theorem C56_final (d : Decoder) (hd : d ∈ pduDecoders) (b : Bytes) (e : PyErr) (h : fromBytes d.read b = .error e) (he : e ≠ .eof)
    (tail : Bytes) : fromBytes d.read (b ++ tail) = .error e := by
  unfold fromBytes at h ⊢
  rcases grows_new (pdu_grows d hd) b tail with hh | hh
  · rw [h] at hh; cases hh; exact absurd rfl he
  · rw [hh]; exact h

/-- **C56.** However the bytes are cut into pieces, the receiver is in the end where it were if they had arrived in one piece. -/
theorem C56_pieces (d : Decoder) (hd : d ∈ pduDecoders) (h0 : fromBytes d.read [] = .error .eof) (pieces : List Bytes) :
    pieces.foldl (Receiver.feed d.read) .start = Receiver.feed d.read .start pieces.flatten := by
  have hg := pdu_grows d hd
  have hs := sized_of d hd h0
  suffices h : ∀ v : Bytes, pieces.foldl (Receiver.feed d.read) (Receiver.feed d.read .start v) =
      Receiver.feed d.read .start (v ++ pieces.flatten) by
    have := h []
    rw [start_feed_nil h0] at this
    exact this
  induction pieces with
  | nil => intro v; rw [List.flatten_nil, List.append_nil]; rfl
  | cons p ps ih =>
    intro v
    rw [List.foldl_cons, feed_feed hg hs, ih, List.flatten_cons, List.append_assoc]

/-- **C56.** Complete messages followed by an incomplete one or by bytes that are no message, cut into any pieces: exactly the
complete messages are received, in order, and the rest is kept. -/
theorem C56_messages (d : Decoder) (hd : d ∈ pduDecoders) (h0 : fromBytes d.read [] = .error .eof)
    (sent : List (Bytes × d.Obj)) (complete : ∀ m ∈ sent, parseAt d.read m.1 0 = .ok (m.2, m.1.length))
    (rest : Bytes) (e : PyErr) (he : fromBytes d.read rest = .error e)
    (pieces : List Bytes) (h : pieces.flatten = (sent.map Prod.fst).flatten ++ rest) :
    pieces.foldl (Receiver.feed d.read) .start = ⟨sent.map Prod.snd, rest, if e = .eof then none else some e⟩ := by
  rw [C56_pieces d hd h0, h]
  have hs := sized_of d hd h0
  clear h
  have key : ∀ f, ((sent.map Prod.fst).flatten ++ rest).length < f →
      takeMessages d.read f ((sent.map Prod.fst).flatten ++ rest) = ⟨sent.map Prod.snd, rest, if e = .eof then none else some e⟩ := by
    induction sent with
    | nil =>
      intro f hf
      obtain ⟨f, rfl⟩ : ∃ f', f = f' + 1 := ⟨f - 1, by omega⟩
      simp only [List.map_nil, List.flatten_nil, List.nil_append]
      unfold takeMessages
      unfold fromBytes at he
      rcases hr : d.read (Stream.new rest) with ⟨e' | x, s⟩ <;> rw [hr] at he <;> cases he
      rfl
    | cons m ms ih =>
      intro f hf
      obtain ⟨f, rfl⟩ : ∃ f', f = f' + 1 := ⟨f - 1, by omega⟩
      have hm := complete m List.mem_cons_self
      obtain ⟨_, hc⟩ := C41_consumed d hd m.1 m.2 _ hm
      have hc := hc ((ms.map Prod.fst).flatten ++ rest)
      rw [List.take_length] at hc
      simp only [List.map_cons, List.flatten_cons, List.append_assoc] at hf ⊢
      obtain ⟨s, hr, hp⟩ : ∃ s, d.read (Stream.new (m.1 ++ ((ms.map Prod.fst).flatten ++ rest))) = (.ok m.2, s) ∧ s.pos = m.1.length := by
        unfold parseAt Rd.eval at hc
        rw [show (Stream.mk (m.1 ++ ((ms.map Prod.fst).flatten ++ rest)) 0 0 0) = Stream.new _ from rfl] at hc
        rcases hr : d.read (Stream.new (m.1 ++ ((ms.map Prod.fst).flatten ++ rest))) with ⟨e' | x, s⟩ <;> rw [hr] at hc
        · cases hc
        · injection hc with hc
          injection hc with h1 h2
          subst h1
          exact ⟨s, rfl, h2⟩
      have h1 := hs _ _ _ hr
      rw [takeMessages, hr]
      dsimp only
      rw [hp, List.drop_left]
      rw [List.length_append] at hf
      rw [ih (fun m' hm' => complete m' (List.mem_cons_of_mem _ hm')) f (by omega)]
  unfold Receiver.feed Receiver.start
  dsimp only
  simp only [List.nil_append]
  rw [key _ (by omega)]


/-- Whether a decoder raises EOFError on the empty input. -/
def Decoder.wantsBytes (d : Decoder) : Bool :=
  match fromBytes d.read [] with
  | .error .eof => true
  | _ => false

/-- Classes without any field: they decode the empty input. -/
def emptyClasses : List String :=
  ["Etsi.DmrData", "Etsi.DmrIpUdp", "Homebrew.Mmdvm2020.TypeRepeaterBeacon", "Hytera.RadioControlProtocol.RemoveRadioRequest",
   "Motorola.AutomaticRegistrationService.DeviceDeregistrationMessage", "Motorola.AutomaticRegistrationService.ArsQueryMessage",
   "Motorola.TextMessageProtocol.TmsServiceAvailabilityAcknowledgement"]

/-- **C56.** All classes but seven without any field raise EOFError on the empty input, as the other theorems ask. -/
theorem C56_empty (d : Decoder) (hd : d ∈ pduDecoders) (hn : d.name ∉ emptyClasses) : fromBytes d.read [] = .error .eof := by
  have h : pduDecoders.all (fun d => d.wantsBytes || decide (d.name ∈ emptyClasses)) = true := by decide +kernel
  have := List.all_eq_true.1 h d hd
  simp only [decide_eq_false hn, Bool.or_false] at this
  unfold Decoder.wantsBytes at this
  split at this
  · assumption
  · cases this

/-! ### Two HRNP packets and the beginning of a third, byte by byte -/

namespace Receiving

/-- The class. -/
abbrev hrnp : Decoder := ⟨"Hytera.HyteraRadioNetworkProtocol", _, HyteraRadioNetworkProtocol.read⟩

/-- A packet that carries nothing, with a number. -/
def hrnpBytes (n : UInt8) : Bytes := [0x7E, 0x04, 0x00, 0xFE, 0x20, 0x10, 0x00, n, 0x00, 0x0C, 0x60, 0xE1]

/-- What it says. -/
def hrnpPacket (n : Nat) : HyteraRadioNetworkProtocol :=
  ⟨[0x7E], 4, 0, resolveEnum HyteraRadioNetworkProtocol.Opcodes 0xFE, 0x20, 0x10, n, 12, 0x60E1, none⟩

theorem hrnp_mem : hrnp ∈ pduDecoders := List.mem_of_getElem? (i := 125) rfl

example : fromBytes hrnp.read [0x7F] = .error (.validation "/seq/0") ∧
    ∀ tail, fromBytes hrnp.read (0x7F :: tail) = .error (.validation "/seq/0") :=
  ⟨by decide +kernel, C56_final hrnp hrnp_mem [0x7F] _ (by decide +kernel) (by decide)⟩

example (pieces : List Bytes) (h : pieces.flatten = hrnpBytes 1 ++ hrnpBytes 2 ++ [0x7E, 0x04]) :
    pieces.foldl (Receiver.feed hrnp.read) .start = ⟨[hrnpPacket 1, hrnpPacket 2], [0x7E, 0x04], none⟩ := by
  have h0 := C56_empty hrnp hrnp_mem (by decide)
  refine C56_messages hrnp hrnp_mem h0 [(hrnpBytes 1, hrnpPacket 1), (hrnpBytes 2, hrnpPacket 2)] ?_ [0x7E, 0x04] .eof
    (by decide +kernel) pieces (by simpa using h)
  simp only [List.forall_mem_cons]
  exact ⟨by decide +kernel, by decide +kernel, by simp⟩

/-- For instance every byte on its own. -/
example : ((hrnpBytes 1 ++ hrnpBytes 2 ++ [0x7E, 0x04]).map fun c => [c]).flatten = hrnpBytes 1 ++ hrnpBytes 2 ++ [0x7E, 0x04] := by
  decide

end Receiving

end Dmr
