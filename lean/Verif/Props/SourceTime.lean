import Verif.Py.TimeFlat
/-
C68: decoding takes a number of steps that is at most linear in the number of bytes, whatever they are.

The steps are counted by Verif/Py/Time: every evaluated expression and every executed statement of the source files is one. What the stream, the
operators and the builtins do inside is not counted.
-/

set_option autoImplicit false

namespace Dmr.Py

/-- The number of steps. -/
abbrev steps (x : Nat × Out Val) : Nat := x.1

/-- The number of bytes of all streams that are still to be read. -/
abbrev unread (σ : State) : Nat := Time.left σ

/-- The classes in which, or in whose parts, there is a loop. -/
def looping : List String :=
  ["Hytera.HyteraDmrApplicationProtocol", "Hytera.HyteraRadioNetworkProtocol", "Hytera.HyteraSimpleTransportReliabilityProtocol", "Hytera.RadioControlProtocol",
   "Hytera.RadioControlProtocol.BroadcastStatusConfigurationRequest", "Hytera.RealTimeTransportProtocol", "Hytera.RealTimeTransportProtocol.FixedHeader",
   "Motorola.MotorolaBinaryXml", "Motorola.MotorolaBinaryXml.MbxmlDocument", "Motorola.MotorolaBinaryXml.LrrpImmediateRequestNcdt", "Motorola.MotorolaBinaryXml.LrrpElement",
   "Motorola.MotorolaBinaryXml.ConstantDataTableReference", "Motorola.MotorolaBinaryXml.Uintvar", "Motorola.MotorolaBinaryXml.Sintvar",
   "Motorola.MotorolaBinaryXml.Ufloatvar", "Motorola.MotorolaBinaryXml.Sfloatvar"]

theorem all_known : ∀ d ∈ library.classes, (Time.known.read d.name).isSome = true := by
  have : library.classes.all (fun d => (Time.known.read d.name).isSome) = true := by decide +kernel
  exact List.all_eq_true.1 this

theorem known_small : ∀ p ∈ Time.readCosts, p.2.a ≤ 637 ∧ p.2.b ≤ 464 ∧ (p.1 ∉ looping → p.2.b = 0 ∧ p.2.a ≤ 296) := by
  have : Time.readCosts.all (fun p => decide (p.2.a ≤ 637 ∧ p.2.b ≤ 464 ∧ (p.1 ∉ looping → p.2.b = 0 ∧ p.2.a ≤ 296))) = true := by decide +kernel
  intro p hp
  exact of_decide_eq_true (List.all_eq_true.1 this p hp)

/-- The counted semantics is the semantics: it gives the same object, or the same exception, in the same memory. -/
theorem C68_same (n : Nat) (cls : String) (b : Bytes) : (Time.fromBytes library n cls b).2 = fromBytes library n cls b := Time.fromBytes_same library n cls b

/-- A constructor of any class, with any arguments and in any memory: at most 657 steps, and 464 for each byte that is not yet read. -/
theorem C68_construct (n : Nat) (cls : String) (args : List Val) (σ : State) :
    steps (((Time.calls library n).construct cls args).run σ) ≤ 657 + 464 * unread σ := by
  cases hk : Time.known.read cls with
  | some d =>
    have h := (Time.library_bounds n).1.construct cls args d hk σ
    obtain ⟨h1, h2, _⟩ := known_small _ (lookup_mem hk)
    dsimp only at h1 h2
    have h := h.mono (d := ⟨657, 464, 0⟩) ⟨by show d.a + 20 ≤ 657; omega, h2, Nat.zero_le _⟩
    unfold steps unread
    rcases hr : ((Time.calls library n).construct cls args).run σ with ⟨t, ⟨a, τ⟩ | ⟨e, τ⟩⟩
    · rw [hr] at h
      have := (Time.at_ok h).2
      dsimp only at this ⊢
      omega
    · rw [hr] at h
      exact Time.at_raise h
  | none =>
    have hm : library.method cls "__init__" = none := by
      cases hm : library.method cls "__init__" with
      | none => rfl
      | some f =>
        obtain ⟨d, hd, rfl, _⟩ := Time.method_mem hm
        have := all_known d hd
        rw [hk] at this
        cases this
    cases n with
    | zero => exact Nat.zero_le _
    | succ n =>
      have : ((Time.calls library (n + 1)).construct cls args).run σ = (Time.discard (Time.free (raise .attribute))).run σ := by
        rw [Time.calls]
        dsimp only
        rw [hm]
      rw [this]
      exact Nat.zero_le _

/-- Whatever the bytes say, `from_bytes` of any class takes at most 657 steps, and 464 for each byte, whether it returns or raises. -/
theorem C68_from_bytes (n : Nat) (cls : String) (b : Bytes) : steps (Time.fromBytes library n cls b) ≤ 657 + 464 * b.length := by
  have h := C68_construct n cls [.io 0] ⟨[], [Stream.new b]⟩
  have e : unread ⟨[], [Stream.new b]⟩ = b.length := by simp [unread, Time.left, Stream.new]
  rw [e] at h
  exact h

/-- The classes without loops take at most 316 steps, however many bytes there are. -/
theorem C68_without_loops (n : Nat) (cls : String) (h : cls ∉ looping) (args : List Val) (σ : State) :
    steps (((Time.calls library n).construct cls args).run σ) ≤ 316 := by
  cases hk : Time.known.read cls with
  | some d =>
    obtain ⟨_, _, h3⟩ := known_small _ (lookup_mem hk)
    obtain ⟨h3, h4⟩ := h3 h
    exact Nat.le_trans (Time.flat_of_within (d := Time.build d) h3 ((Time.library_bounds n).1.construct cls args d hk) σ) (by show d.a + 20 ≤ 316; dsimp only at h4; omega)
  | none =>
    have hm : library.method cls "__init__" = none := by
      cases hm : library.method cls "__init__" with
      | none => rfl
      | some f =>
        obtain ⟨d, hd, rfl, _⟩ := Time.method_mem hm
        have := all_known d hd
        rw [hk] at this
        cases this
    cases n with
    | zero => exact Nat.zero_le _
    | succ n =>
      have : ((Time.calls library (n + 1)).construct cls args).run σ = (Time.discard (Time.free (raise .attribute))).run σ := by
        rw [Time.calls]
        dsimp only
        rw [hm]
      rw [this]
      exact Nat.zero_le _

/-- The first use of any property of any object, in any memory, takes at most 203 steps. -/
theorem C68_property (n r : Nat) (x : String) (σ : State) : steps (((Time.calls library n).property r x).run σ) ≤ 203 := Time.flat_property n r x σ

/-- It is counted: so many steps for a network address, and for a number in one and in four bytes. -/
example : steps (Time.fromBytes library 4 "Hytera.RadioIp" [10, 0, 0, 1]) = 34 ∧
    steps (Time.fromBytes library 4 "Motorola.MotorolaBinaryXml.Uintvar" [0x7f]) = 36 ∧
    steps (Time.fromBytes library 4 "Motorola.MotorolaBinaryXml.Uintvar" [0x80, 0x80, 0x80, 0x01]) = 102 := by decide +kernel

end Dmr.Py
