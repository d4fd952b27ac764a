import Verif.Layout
/-
`parseAt r b q`: run a decoder on a stream over `b` positioned at byte `q`, and report the object together with
the stream position afterwards. This is what happens to a structure embedded in a larger message.
-/

namespace Dmr

/-- Outcome of the decoder `r` on the stream over `b` with `tell() = q` and no pending bits: the object and the
`tell()` afterwards, or the exception. -/
def parseAt (r : Rd α) (b : Bytes) (q : Nat) : Except PyErr (α × Nat) :=
  (Rd.eval r { buf := b, pos := q, bits := 0, bitsLeft := 0 }).map fun x => (x.1, x.2.pos)

theorem Parses.parseAt {r : Rd α} {f : Bytes → Nat → Parsed α} (h : Parses r f) (b : Bytes) (q : Nat) (hq : q ≤ b.length) :
    parseAt r b q = f b q := by
  unfold Dmr.parseAt
  rw [← Stream.at_byte, h.run b q hq]
  rcases f b q with _ | ⟨a, e⟩
  · rfl
  · simp only [lift, Except.map, Stream.at_byte]

/-- `from_bytes` is the case of position 0. -/
theorem fromBytes_parseAt (r : Rd α) (b : Bytes) : fromBytes r b = (parseAt r b 0).map Prod.fst := by
  rw [fromBytes_eq]
  unfold parseAt
  rw [show (Stream.mk b 0 0 0) = Stream.at b 0 from (Stream.at_byte b 0).symm]
  rcases Rd.eval r (Stream.at b 0) with _ | ⟨_, _⟩ <;> rfl

end Dmr
