import Verif.AmountAll
/-
C54: no amplification. However long the input and whatever the length fields in it say, a decoded object holds no more bytes,
characters and list entries (at any depth, Verif/Spec/Amount.lean) than the number of bytes consumed to decode it. The object is
the Python object built by the constructor (Verif/Model/Tools/PyView.lean), before any further property is evaluated.
-/

set_option autoImplicit false

namespace Dmr

/-- C54, anywhere on a stream. -/
theorem C54_consumed (d : ObjectDecoder) (hd : d ∈ objectDecoders) (b : Bytes) (q : Nat) (hq : q ≤ b.length)
    (o : d.Obj) (e : Nat) (h : parseAt d.read b q = .ok (o, e)) : e ≤ b.length ∧ q + (d.view o).amount ≤ e := by
  unfold parseAt at h
  rw [← Stream.at_byte] at h
  rcases h1 : Rd.eval d.read (Stream.at b (8 * q)) with _ | ⟨x, s⟩
  · rw [h1] at h; cases h
  rw [h1] at h
  obtain ⟨n, n1, rfl, _, n4⟩ := objectDecoders_fit d hd b (8 * q) x s (by omega) (fun _ => by omega) h1
  cases h
  dsimp only at n4
  have hp : (Stream.at b (8 * q + n)).pos = (8 * q + n + 7) / 8 := rfl
  dsimp only
  rw [hp]
  omega

/-- C54, `from_bytes`: an object never holds more than the packet it was decoded from. -/
theorem C54_packet (d : ObjectDecoder) (hd : d ∈ objectDecoders) (b : Bytes) (o : d.Obj) (h : fromBytes d.read b = .ok o) :
    (d.view o).amount ≤ b.length := by
  rw [fromBytes_parseAt] at h
  rcases h1 : parseAt d.read b 0 with _ | ⟨x, e⟩
  · rw [h1] at h; cases h
  rw [h1] at h
  cases h
  have := C54_consumed d hd b 0 (Nat.zero_le _) x e h1
  show (d.view x).amount ≤ b.length
  omega

/-- The bound is met: an unsigned variable-length integer of two bytes is a list of two entries. -/
example : (parseAt Motorola.MotorolaBinaryXml.Uintvar.read [0xFF, 0x81, 0x01, 0xEE] 1).map
    (fun x => (x.1.toPy.amount, x.2)) = .ok (2, 3) := by decide +kernel

/-- A RTP packet that announces two contributing sources, followed by three bytes of audio: two entries and three bytes. -/
example : (fromBytes Hytera.RealTimeTransportProtocol.read
    [0x82, 0, 0, 1, 0, 0, 0, 2, 0, 0, 0, 3, 0, 0, 0, 4, 0, 0, 0, 5, 9, 9, 9]).map (fun x => x.toPy.amount) = .ok 5 := by
  decide +kernel

example : ∃ d ∈ objectDecoders, d.name = "Hytera.RealTimeTransportProtocol" :=
  ⟨⟨"Hytera.RealTimeTransportProtocol", _, Hytera.RealTimeTransportProtocol.read, Hytera.RealTimeTransportProtocol.toPy⟩,
    by simp [objectDecoders], rfl⟩

end Dmr
