import Verif.Py.Models
/-
C58, C59: what running the source of the decoders does. The source of every module of okdmr/kaitai/{etsi,homebrew,hytera,motorola}
is data here (Verif/Py/Source, generated from the files by tools/mkpyast.py with Python's own parser), and `Py.fromBytes library n cls b`
runs the class `cls` of it on the bytes `b` (Verif/Py/Semantics), with objects in a memory that refer to each other; `n` bounds how
deep calls may nest.
-/

set_option autoImplicit false

namespace Dmr

open Py

/-- C58. Every class of the source is in the table: with a model, or as one that cannot be used on its own. -/
theorem C58_every_class (d : ClassDef) (hd : d ∈ library.classes) :
    (∃ R, (d.name, some R) ∈ table) ∨ (d.name, none) ∈ table := by
  have h : d.name ∈ table.map Prod.fst := by
    rw [table_complete]
    exact List.mem_map_of_mem hd
  obtain ⟨⟨name, R⟩, hr, he⟩ := List.mem_map.1 h
  simp only at he
  subst he
  cases R with
  | some R => exact .inl ⟨R, hr⟩
  | none => exact .inr hr

/-- There are 167 classes, and 11 of them cannot be used on their own. -/
example : library.classes.length = 167 ∧ (table.filter fun row => row.2.isNone).length = 11 := ⟨rfl, rfl⟩

/-- An address. -/
def anAddress : Obj :=
  ⟨"Hytera.RadioIp", [("_io", .io 0), ("_parent", .pv .none), ("_root", .obj 0), ("subnet", .pv (.int 10)),
    ("radio_id_1", .pv (.int 0)), ("radio_id_2", .pv (.int 0)), ("radio_id_3", .pv (.int 80))]⟩

set_option maxRecDepth 20000 in
/-- Running the source. -/
example : Py.fromBytes library 13 "Hytera.RadioIp" [10, 0, 0, 80] = .ok (.obj 0) ⟨[anAddress], [⟨[10, 0, 0, 80], 4, 0, 0⟩]⟩ := by rfl

theorem fromBytes_of {name : String} {cd : ClassDef} (hc : library.class name = some cd)
    (hi : cd.methods.lookup "__init__" = some Py.init) (n : Nat) (b : Bytes) {o : Out Val}
    (h : ((calls library (n + 1)).construct name [.io 0, .pv .none, .pv .none]).run ⟨[], [Stream.new b].set 0 (Stream.new b)⟩ = o) :
    Py.fromBytes library (n + 1) name b = o := by
  unfold Py.fromBytes
  rw [construct_short _ _ _ cd hc hi]
  exact h

/-- The memory after decoding a Motorola acknowledgement: two parts of the same file, and a remembered property. -/
def anAcknowledgement : List Obj := [
  ⟨"Motorola.TextMessageProtocol", [("_io", .io 0), ("_parent", .pv .none), ("_root", .obj 0), ("message_size", .pv (.int 2)),
    ("message_header", .obj 1), ("len_address", .pv (.int 0)), ("_m_custom_pdu_type", .pv (.int 31)), ("pdu_content", .obj 2),
    ("unparsed_data", .pv (.bytes []))]⟩,
  ⟨"Motorola.TextMessageProtocol.MessageHeaderBits", [("_io", .io 0), ("_parent", .obj 0), ("_root", .obj 0),
    ("extension_bit", .pv (.bool false)), ("acknowledgement_required", .pv (.bool false)), ("reserved", .pv (.bool false)),
    ("control_user_bit", .pv (.bool true)), ("pdu_type", .pv (.int 15))]⟩,
  ⟨"Motorola.TextMessageProtocol.TmsAcknowledgement", [("_io", .io 0), ("_parent", .obj 0), ("_root", .obj 0)]⟩]

theorem anAcknowledgement_runs : Py.fromBytes library 13 "Motorola.TextMessageProtocol" [0, 2, 0x1F, 0] =
    .ok (.obj 0) ⟨anAcknowledgement, [⟨[0, 2, 0x1F, 0], 4, 0, 0⟩]⟩ := by
  refine fromBytes_of ConformMotorola.TextMessageProtocol_class rfl 12 _ ?_
  refine (ConformMotorola.TextMessageProtocol_builds 6 [] [Stream.new _] 0 (by simp) (Stream.new _)).trans ?_
  have h : Motorola.TextMessageProtocol.read (Stream.new [0, 2, 0x1F, 0]) =
      (.ok ⟨2, ⟨false, false, false, true, 15⟩, 0, none, some (.tmsAcknowledgement ⟨none⟩), []⟩, ⟨[0, 2, 0x1F, 0], 4, 0, 0⟩) := by decide +kernel
  unfold after
  rw [h]
  simp [anAcknowledgement, built, rootOf, Motorola.TextMessageProtocol.toPy, Motorola.TextMessageProtocol.PduContentUnion.toPy,
    Motorola.TextMessageProtocol.TmsAcknowledgement.toPy, Motorola.TextMessageProtocol.MessageHeaderBits.toPy, PyVal.object, PyVal.attr, PyVal.optAttr,
    placeObj, placeAttrs, place, fileClasses, Motorola.TextMessageProtocol.customPduType, truthy_none]

/-- C58. If the model returns an object, then running the source returns the same object: the same class and attributes, with the
same values, assigned in the same order, down to the last part; and the stream is left in the same state. -/
theorem C58_returns (name : String) (R : Reader) (hR : (name, some R) ∈ table) (b : Bytes) (x : R.Obj) (s : Stream)
    (h : R.read (Stream.new b) = (.ok x, s)) :
    ∃ heap, (∀ n, 13 ≤ n → Py.fromBytes library n name b = .ok (.obj 0) ⟨heap, [s]⟩) ∧ Shows heap (.obj 0) (R.toPy x) := by
  obtain ⟨make, this⟩ := Constructs.agrees (table_claims (name, some R) hR)
  have := this b
  rw [h] at this
  exact ⟨make x, this.1, this.2.1⟩

/-- C58. If the model raises an exception, then running the source raises the same one, and the stream is left in the same state. -/
theorem C58_raises (name : String) (R : Reader) (hR : (name, some R) ∈ table) (n : Nat) (hn : 13 ≤ n) (b : Bytes) (e : PyErr) (s : Stream)
    (h : R.read (Stream.new b) = (.error e, s)) : Py.fromBytes library n name b = .raise e ⟨[], [s]⟩ := by
  obtain ⟨make, this⟩ := Constructs.agrees (table_claims (name, some R) hR)
  have := this b
  rw [h] at this
  exact this n hn

example := C58_returns "Motorola.TextMessageProtocol" _ (List.mem_of_getElem? (i := 166) rfl) [0, 2, 0x1F, 0] _ _
  (show Motorola.TextMessageProtocol.read (Stream.new [0, 2, 0x1F, 0]) =
    (.ok ⟨2, ⟨false, false, false, true, 15⟩, 0, none, some (.tmsAcknowledgement ⟨none⟩), []⟩, ⟨[0, 2, 0x1F, 0], 4, 0, 0⟩) by decide +kernel)

example : Py.fromBytes library 99 "Hytera.RadioIp" [10, 0] = .raise .eof ⟨[], [⟨[10, 0], 2, 0, 0⟩]⟩ :=
  C58_raises "Hytera.RadioIp" ⟨_, Hytera.RadioIp.read, Hytera.RadioIp.toPy⟩ (List.mem_of_getElem? (i := 51) rfl) 99 (by decide) [10, 0] .eof _
    (show Hytera.RadioIp.read (Stream.new [10, 0]) = (.error .eof, ⟨[10, 0], 2, 0, 0⟩) by decide +kernel)

/-- C58. The models are the decoders that the other properties are about. -/
theorem C58_models (d : ObjectDecoder) (hd : d ∈ objectDecoders) : (d.name, some ⟨d.Obj, d.read, d.view⟩) ∈ table :=
  objectDecoders_in_table d hd

example := C58_models ⟨"Etsi.DmrCsbk", _, Etsi.DmrCsbk.read, Etsi.DmrCsbk.toPy⟩ (List.mem_of_getElem? (i := 7) rfl)

/-- C58. A class that needs attributes of another object raises AttributeError on its own (or EOFError, before it comes to that). -/
theorem C58_dependent (name : String) (h : (name, none) ∈ table) (n : Nat) (hn : 13 ≤ n) (b : Bytes) :
    ∃ e s, Py.fromBytes library n name b = .raise e ⟨[], [s]⟩ ∧ (e = .attribute ∨ e = .eof) :=
  table_claims (name, none) h n b hn

example := C58_dependent "Motorola.TextMessageProtocol.TextMessage" (List.mem_of_getElem? (i := 158) rfl) 13 (by decide) [0x41, 0]

/-- C58. Running the source raises only the exceptions of the table of C40: `from_bytes` has no other way to fail. -/
theorem C58_exceptions (d : Decoder) (E : List ErrKind) (hd : (d, E) ∈ exceptionTable) (n : Nat) (hn : 13 ≤ n) (b : Bytes) (e : PyErr) (σ : State)
    (h : Py.fromBytes library n d.name b = .raise e σ) : e.kind ∈ E := by
  obtain ⟨v, hv⟩ := exceptionTable_in_table (d, E) hd
  rcases hx : d.read (Stream.new b) with ⟨e' | x, s⟩
  · rw [C58_raises d.name _ hv n hn b e' s hx] at h
    cases h
    exact exceptionTable_sound (d, E) hd b e (by unfold Dmr.fromBytes; rw [hx])
  · obtain ⟨heap, h', -⟩ := C58_returns d.name _ hv b x s hx
    rw [h' n hn] at h
    cases h

example (e : PyErr) (σ : State) (h : Py.fromBytes library 13 "Etsi.DmrCsbk" [0xBD] = .raise e σ) : e.kind ∈ [ErrKind.EOFError] :=
  C58_exceptions ⟨"Etsi.DmrCsbk", _, Etsi.DmrCsbk.read⟩ _ (List.mem_of_getElem? (i := 7) rfl) 13 (by decide) [0xBD] e σ h

/-- C59. The objects of a decoded packet refer to each other as documented: `_parent` is the object that a part is a part of, `_root` the
object that was asked for, except that parts of other files are roots of their own; `_io` is the one stream; and no object is a part
of two objects, or in two places of one. -/
theorem C59_navigation (d : ClassDef) (hd : d ∈ library.classes) (n : Nat) (hn : 13 ≤ n) (b : Bytes) (v : Val) (heap : List Obj)
    (S : List Stream) (h : Py.fromBytes library n d.name b = .ok v ⟨heap, S⟩) : v = .obj 0 ∧ S.length = 1 ∧ Navigable heap := by
  rcases C58_every_class d hd with ⟨R, hR⟩ | hN
  · obtain ⟨make, this⟩ := Constructs.agrees (table_claims (d.name, some R) hR)
    have := this b
    rcases hx : R.read (Stream.new b) with ⟨e | x, s⟩
    · rw [C58_raises d.name R hR n hn b e s hx] at h
      cases h
    · rw [hx] at this
      obtain ⟨h1, -, h3, -⟩ := this
      rw [h1 n hn] at h
      cases h
      exact ⟨rfl, rfl, h3⟩
  · obtain ⟨e, s, h', -⟩ := C58_dependent d.name hN n hn b
    rw [h'] at h
    cases h

example : Navigable anAcknowledgement :=
  (C59_navigation Source.Motorola.TextMessageProtocol (List.mem_of_getElem? (i := 166) rfl) 13 (by decide) _ _ _ _ anAcknowledgement_runs).2.2

/-- The parts of its objects are the objects 1 and 2, each in one place. -/
example : anAcknowledgement.flatMap partsOf = [1, 2] := by decide +kernel

end Dmr
