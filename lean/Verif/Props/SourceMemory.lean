import Verif.Props.SourceObjects
import Verif.Props.Amount
/-
C66: decoding needs little memory. Whatever the length fields of a packet say, running the source of a decoder leaves no more than the bytes it
used in the memory, and only so many objects.
-/

set_option autoImplicit false

namespace Dmr

open Py Graph

/-- All objects that are in the memory after `from_bytes`, together, hold no more bytes, characters and list entries than bytes were
used; and there are at most 9 objects, and 8 for each of these bytes. -/
theorem decoder_memory (d : ObjectDecoder) (hd : d ∈ objectDecoders) (n : Nat) (hn : 13 ≤ n) (b : Bytes) (v : Val) (heap : List Obj) (s : Stream)
    (h : Py.fromBytes library n d.name b = .ok v ⟨heap, [s]⟩) :
    s.pos ≤ b.length ∧ held heap ≤ s.pos ∧ heap.length ≤ 9 + 8 * s.pos := by
  have hv := objectDecoders_in_table d hd
  obtain ⟨make, hm⟩ := Constructs.agrees (table_claims _ hv)
  obtain ⟨-, -, few⟩ := table_told _ hv
  dsimp only at hm few
  have hm := hm b
  rcases hx : d.read (Stream.new b) with ⟨e | x, s1⟩
  · rw [C58_raises _ _ hv n hn b e s1 hx] at h
    cases h
  · rw [hx] at hm
    obtain ⟨h1, -, -, h3, h4⟩ := hm
    rw [h1 n hn] at h
    cases h
    have hp : parseAt d.read b 0 = .ok (x, s.pos) := by
      unfold parseAt Rd.eval
      rw [show ({ buf := b, pos := 0, bits := 0, bitsLeft := 0 } : Stream) = Stream.new b from rfl, hx]
      rfl
    obtain ⟨h5, h6⟩ := C54_consumed d hd b 0 (Nat.zero_le _) x s.pos hp
    have := few x
    unfold Few.Few perItem at this
    rw [h3]
    refine ⟨h5, by omega, ?_⟩
    have : 8 * (d.view x).amount ≤ 8 * s.pos := Nat.mul_le_mul_left _ (by omega)
    omega

/-- Every class of the library is one of the decoders, or cannot be used on its own. -/
theorem class_decoder (c : ClassDef) (hc : c ∈ library.classes) :
    (∃ d ∈ objectDecoders, d.name = c.name) ∨ (c.name, none) ∈ table := by
  have h : ∀ x ∈ library.classes.map ClassDef.name, x ∈ objectDecoders.map ObjectDecoder.name ∨ x ∈ (table.filter fun r => r.2.isNone).map Prod.fst := by
    decide +kernel
  rcases h c.name (List.mem_map_of_mem hc) with h | h
  · obtain ⟨d, hd, e⟩ := List.mem_map.1 h
    exact .inl ⟨d, hd, e⟩
  · obtain ⟨⟨x, r⟩, hr, e⟩ := List.mem_map.1 h
    obtain ⟨h1, h2⟩ := List.mem_filter.1 hr
    cases r with
    | none => exact .inr (e ▸ h1)
    | some r => cases h2

/-- C66. After `from_bytes` of any class, all objects in the memory, together, hold no more bytes, characters and list entries than bytes were
used; and there are at most 9 objects, and 8 for each of these bytes. -/
theorem C66_memory (c : ClassDef) (hc : c ∈ library.classes) (n : Nat) (hn : 13 ≤ n) (b : Bytes) (v : Val) (heap : List Obj) (S : List Stream)
    (h : Py.fromBytes library n c.name b = .ok v ⟨heap, S⟩) :
    ∃ s, S = [s] ∧ s.pos ≤ b.length ∧ held heap ≤ s.pos ∧ heap.length ≤ 9 + 8 * s.pos := by
  rcases class_decoder c hc with ⟨d, hd, e⟩ | hN
  · obtain ⟨-, hl, -⟩ := C59_navigation c hc n hn b v heap S h
    obtain ⟨s, rfl⟩ := List.length_eq_one_iff.1 hl
    rw [← e] at h
    exact ⟨s, rfl, decoder_memory d hd n hn b v heap s h⟩
  · obtain ⟨e, s, h', -⟩ := C58_dependent c.name hN n hn b
    rw [h'] at h
    cases h

/-- C66. The same when a class is called with a stream that is anywhere, in whatever memory: so much is added, for the bytes that were used. -/
theorem C66_stream (d : ObjectDecoder) (hd : d ∈ objectDecoders) (n : Nat) (hn : 13 ≤ n) (H : List Obj) (S : List Stream) (k : Nat) (b : Bytes)
    (q : Nat) (hq : q ≤ b.length) (hk : S[k]? = some ⟨b, q, 0, 0⟩) (h0 : d.name ∈ fromStart → q = 0) (v : Val) (heap : List Obj) (S' : List Stream)
    (h : (Py.new n d.name k).run ⟨H, S⟩ = .ok v ⟨heap, S'⟩) :
    ∃ s, S' = S.set k s ∧ q ≤ s.pos ∧ s.pos ≤ b.length ∧ held heap ≤ held H + (s.pos - q) ∧ heap.length ≤ H.length + (9 + 8 * (s.pos - q)) := by
  unfold Py.new at h
  have hv := objectDecoders_in_table d hd
  obtain ⟨make, hm⟩ := table_claims _ hv
  obtain ⟨-, -, few⟩ := table_told _ hv
  dsimp only at hm few
  have hm := hm H S k _ hk h0
  rcases hx : d.read ⟨b, q, 0, 0⟩ with ⟨e | x, s⟩
  · rw [hx] at hm
    rw [hm n hn] at h
    cases h
  · rw [hx] at hm
    obtain ⟨h1, -, -, h3, h4⟩ := hm
    rw [h1 n hn] at h
    cases h
    have hp : parseAt d.read b q = .ok (x, s.pos) := by
      unfold parseAt Rd.eval
      rw [hx]
      rfl
    obtain ⟨h5, h6⟩ := C54_consumed d hd b q hq x s.pos hp
    have := few x
    unfold Few.Few perItem at this
    rw [List.length_append, h3, held_append]
    refine ⟨s, rfl, by omega, h5, by omega, ?_⟩
    have : 8 * (d.view x).amount ≤ 8 * (s.pos - q) := Nat.mul_le_mul_left _ (by omega)
    omega

/-- An acknowledgement of four bytes: three objects, which hold nothing but numbers, flags and an empty list of bytes. -/
example : anAcknowledgement.length = 3 ∧ held anAcknowledgement = 0 := by decide +kernel

example := C66_memory Source.Motorola.TextMessageProtocol (List.mem_of_getElem? (i := 166) rfl) 13 (by decide) _ _ _ _ anAcknowledgement_runs

/-- Four bytes of a stream: one object, which holds four numbers. -/
example := C66_stream ⟨"Hytera.RadioIp", _, Hytera.RadioIp.read, Hytera.RadioIp.toPy⟩ (by simp [objectDecoders]) 13 (by decide)
  aMemory.heap aMemory.streams 1 [7, 7, 10, 0, 0, 80, 9] 2 (by decide) rfl (fun _ => by contradiction) (.obj 1) _ _ (by rfl)

end Dmr
