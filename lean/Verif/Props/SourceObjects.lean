import Verif.Props.SourceStreams
import Verif.Props.Lossless
import Verif.Py.Told
import Verif.Py.Unique
/-
C64: what running the source of a decoder gives tells what it was given. The theorems are about runs of the source and what the objects in
the memory look like.
-/

set_option autoImplicit false

namespace Dmr

open Py Graph

/-- Running `cls.from_bytes(b)` returns an object that looks like `tree`. -/
def Py.Gives (cls : String) (b : Bytes) (tree : PyVal) : Prop :=
  ∃ heap s, (∀ n, 13 ≤ n → Py.fromBytes library n cls b = .ok (.obj 0) ⟨heap, [s]⟩) ∧ Shows heap (.obj 0) tree

theorem fromBytes_distinct {n : Nat} {cls : String} {b : Bytes} {v : Val} {σ : State} (h : Py.fromBytes library n cls b = .ok v σ) : Distinct σ.heap := by
  have := (calls_keep library n).construct cls [.io 0] ⟨[], [Stream.new b]⟩ (fun o ho => absurd ho List.not_mem_nil)
  unfold Py.fromBytes at h
  rw [h] at this
  exact this

/-- If a run ends with an object that looks like the model object `x`, then `x` is what the model returns. -/
theorem model_of_run {name : String} {R : Reader} (hR : (name, some R) ∈ table) {n : Nat} (hn : 13 ≤ n) {b : Bytes} {v : Val} {heap : List Obj}
    {s : Stream} (h : Py.fromBytes library n name b = .ok v ⟨heap, [s]⟩) :
    ∃ x, v = .obj 0 ∧ R.read (Stream.new b) = (.ok x, s) ∧ Shows heap (.obj 0) (R.toPy x) ∧
      ∀ y, Shows heap (.obj 0) (R.toPy y) → y = x := by
  rcases hx : R.read (Stream.new b) with ⟨e | x, s1⟩
  · rw [C58_raises name R hR n hn b e s1 hx] at h
    cases h
  · obtain ⟨heap', h', hs⟩ := C58_returns name R hR b x s1 hx
    have hd := fromBytes_distinct h
    rw [h' n hn] at h
    cases h
    obtain ⟨hi, hr, -⟩ := table_told _ hR
    exact ⟨x, rfl, rfl, hs, fun y hy => hi _ _ (hy.unique hd hs (hr y) (hr x))⟩

/-- C64. Running the source gives an object that looks like `x` if and only if the model gives `x`. So everything that is said about the
models is said about runs of the source, and nothing is in the models that is not in the attributes of the objects. -/
theorem C64_gives (name : String) (R : Reader) (hR : (name, some R) ∈ table) (b : Bytes) (x : R.Obj) :
    Py.Gives name b (R.toPy x) ↔ fromBytes R.read b = .ok x := by
  unfold Dmr.fromBytes
  constructor
  · rintro ⟨heap, s, h, hs⟩
    obtain ⟨y, -, hy, -, hu⟩ := model_of_run hR (Nat.le_refl 13) (h 13 (Nat.le_refl 13))
    rw [hy, hu x hs]
  · intro h
    rcases hx : R.read (Stream.new b) with ⟨e | y, s⟩
    · rw [hx] at h; cases h
    · rw [hx] at h
      cases h
      obtain ⟨heap, h, hs⟩ := C58_returns name R hR b x s hx
      exact ⟨heap, s, h, hs⟩

example : Py.Gives "Hytera.RadioIp" [10, 0, 0, 80] addressTree :=
  (C64_gives "Hytera.RadioIp" ⟨_, Hytera.RadioIp.read, Hytera.RadioIp.toPy⟩ (List.mem_of_getElem? (i := 51) rfl) [10, 0, 0, 80] ⟨10, 0, 0, 80⟩).2
    (by decide +kernel)

/-- C64. Whatever a run returns looks like some model object. -/
theorem C64_some (name : String) (R : Reader) (hR : (name, some R) ∈ table) (n : Nat) (hn : 13 ≤ n) (b : Bytes) (v : Val) (σ : State)
    (h : Py.fromBytes library n name b = .ok v σ) : ∃ x, Py.Gives name b (R.toPy x) := by
  rcases hx : R.read (Stream.new b) with ⟨e | x, s1⟩
  · rw [C58_raises name R hR n hn b e s1 hx] at h
    cases h
  · obtain ⟨heap', h', hs⟩ := C58_returns name R hR b x s1 hx
    exact ⟨x, heap', s1, h', hs⟩

/-- C64. A class of `losslessDecoders` loses nothing: if running the source on `b` and on `b'` gives objects that look the same (apart from
`_io`, `_parent` and `_root`), then the bytes that were used are the same. -/
theorem C64_lossless (d : Decoder) (hd : d ∈ losslessDecoders) (n : Nat) (hn : 13 ≤ n) (b b' : Bytes) (v v' : Val) (heap heap' : List Obj)
    (s s' : Stream) (h : Py.fromBytes library n d.name b = .ok v ⟨heap, [s]⟩) (h' : Py.fromBytes library n d.name b' = .ok v' ⟨heap', [s']⟩)
    (tree : PyVal) (ht : Shows heap v tree) (ht' : Shows heap' v' tree) :
    s.pos = s'.pos ∧ s.pos ≤ b.length ∧ s.pos ≤ b'.length ∧ b.take s.pos = b'.take s.pos := by
  rcases losslessDecoders_in_table d hd with ⟨view, hv⟩ | hN
  · obtain ⟨x, rfl, hx, hs, -⟩ := model_of_run hv hn h
    obtain ⟨x', rfl, hx', hs', hu⟩ := model_of_run hv hn h'
    obtain rfl := hu x (ht'.same ht hs)
    have hp : ∀ {b : Bytes} {s : Stream}, d.read (Stream.new b) = (.ok x, s) → parseAt d.read b 0 = .ok (x, s.pos) := by
      intro b s hx
      unfold parseAt Rd.eval
      rw [show ({ buf := b, pos := 0, bits := 0, bitsLeft := 0 } : Stream) = Stream.new b from rfl, hx]
      rfl
    obtain ⟨l, h1, h2, h3, h4, h5⟩ := C43_equal_objects d hd b b' 0 0 s.pos s'.pos x (Nat.zero_le _) (Nat.zero_le _) (hp hx) (hp hx')
    rw [Nat.zero_add] at h1 h2
    rw [h1, h2] at *
    exact ⟨rfl, h3, h4, by simpa [slice] using h5⟩
  · obtain ⟨e, s1, h1, -⟩ := C58_dependent d.name hN n hn b
    rw [h1] at h
    cases h

/-- Two runs on different streams that give the same address. -/
example := C64_lossless addresses (List.mem_of_getElem? (i := 69) rfl) 13 (by decide) _ _ _ _ _ _ _ _ anAddress_runs
  (C63_trailing addresses (List.mem_append_left _ addresses_sequential) 13 (by decide) _ _ _ _ anAddress_runs [1, 2, 3]) addressTree anAddress_shows anAddress_shows

end Dmr
