import Verif.ErrorsAll
import Verif.LocalList
import Verif.Props.HyteraFrames
/-
Property C40: the exceptions `from_bytes` can raise, for every class (generated by tools/mkerrs.py; the text before and after
the generated part is hand-written).
-/

namespace Dmr

theorem Errs.map {E : List ErrKind} {x : Except PyErr α} (g : α → β) (h : Errs E x) : Errs E (x.map g) := by
  cases x with
  | error e => exact Errs.error (h e rfl)
  | ok a => exact Errs.ok _

/-- The same for a decoder on any stream. -/
def RErrs (E : List ErrKind) (r : Rd α) : Prop := ∀ s, Errs E (r s).1

theorem RErrs.pure {E : List ErrKind} (a : α) : RErrs E (Rd.pure a) := fun _ => Errs.ok _
theorem RErrs.bind {E : List ErrKind} {r : Rd α} {k : α → Rd β} (hr : RErrs E r) (hk : ∀ a, RErrs E (k a)) :
    RErrs E (r >>= k) := by
  intro s
  show Errs E (Rd.bind r k s).1
  unfold Rd.bind
  have := hr s
  rcases h : r s with ⟨e | a, s1⟩
  · rw [h] at this; exact Errs.error (this e rfl)
  · exact hk a s1
theorem RErrs.readBitsIntBe (n : Nat) : RErrs [.EOFError] (readBitsIntBe n) := by
  intro s
  unfold Dmr.readBitsIntBe
  dsimp only
  split
  · unfold readBytesNotAligned
    dsimp only
    split
    · rename_i h
      split at h
      · cases h
      · cases h; exact Errs.error (by decide)
    · exact Errs.ok _
  · exact Errs.ok _
theorem RErrs.readFlag : RErrs [.EOFError] readFlag := RErrs.bind (RErrs.readBitsIntBe 1) fun _ => RErrs.pure _
theorem RErrs.optionally {E : List ErrKind} {c : Bool} {r : Rd α} (h : RErrs E r) : RErrs E (optionally c r) := by
  unfold Dmr.optionally
  split
  · exact RErrs.bind h fun _ => RErrs.pure _
  · exact RErrs.pure _

theorem textHeader_errs (b : Bytes) :
    Errs [.EOFError] (fromBytes Motorola.TextMessageProtocol.TextMessageHeaderSequenceAndEncoding.read b) := by
  refine (?_ : RErrs _ Motorola.TextMessageProtocol.TextMessageHeaderSequenceAndEncoding.read) _
  unfold Motorola.TextMessageProtocol.TextMessageHeaderSequenceAndEncoding.read
  exact RErrs.bind RErrs.readFlag fun _ => RErrs.bind (RErrs.readBitsIntBe _) fun _ => RErrs.bind (RErrs.readBitsIntBe _) fun _ =>
    RErrs.bind (RErrs.optionally RErrs.readFlag) fun _ => RErrs.bind (RErrs.optionally (RErrs.readBitsIntBe _)) fun _ =>
    RErrs.bind (RErrs.readBitsIntBe _) fun _ => RErrs.pure _

theorem heartbeat_errs (b : Bytes) : Errs [.ValidationNotEqualError] (fromBytes Hytera.IpSiteConnectHeartbeat.read b) := by
  by_cases h1 : b.length = 1
  · obtain ⟨v, rfl⟩ := List.length_eq_one_iff.mp h1
    by_cases hv : v = 0
    · rw [(Hytera.C21_keepalive v).1 hv]; exact Errs.ok _
    · rw [(Hytera.C21_keepalive v).2 hv]; exact Errs.error (by decide)
  by_cases h20 : b.length = 20
  · by_cases hs : ∃ s, b = Hytera.pingPong s
    · obtain ⟨s, hs⟩ := hs
      rw [(Hytera.C21_pingpong b h20).1 s hs]; exact Errs.ok _
    · obtain ⟨p, hp⟩ := (Hytera.C21_pingpong b h20).2 (fun s h => hs ⟨s, h⟩)
      rw [hp]; exact Errs.error (by simp [PyErr.kind])
  · rw [Hytera.C21_unknown b h1 h20]; exact Errs.ok _

