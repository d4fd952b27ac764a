import Verif.Py.Base
import Verif.Py.Held
import Verif.Py.Regular
/-
From the theorems of Verif/Py/Conform to what Verif/Py/Spec says.
-/

set_option autoImplicit false

namespace Dmr.Py

open Graph (regular placeObj_shows placeObj_navigable navigable_alone)

theorem constructs {name : String} (R : Reader) (d : Nat) (hd : d + 1 ≤ 13) {cd : ClassDef}
    (hc : library.class name = some cd) (hi : cd.methods.lookup "__init__" = some init)
    (hs : ∀ x, ∃ cls l, R.toPy x = .struct cls l) (hr : ∀ x, regular (R.toPy x))
    (hb : ∀ (m : Nat) (H : List Obj) (S : List Stream) (k : Nat), k < S.length → ∀ (s : Stream), (name ∈ fromStart → s.pos = 0) →
      ((calls library (m + (d + 1))).construct name [.io k, .pv .none, .pv .none]).run ⟨H, S.set k s⟩ =
        after R.read s (fun e s' => .raise e ⟨H, S.set k s'⟩) (built R.toPy k (.pv .none) (.pv .none) H S)) :
    Constructs name R := by
  refine ⟨fun base k x => placeObj (.io k) (.pv .none) (.obj base) base (R.toPy x), fun H S k s hk h0 => ?_⟩
  have h : ∀ n, 13 ≤ n → ((calls library n).construct name [.io k]).run ⟨H, S⟩ =
      after R.read s (fun e s' => .raise e ⟨H, S.set k s'⟩) (built R.toPy k (.pv .none) (.pv .none) H S) := by
    intro n hn
    obtain ⟨m, rfl⟩ : ∃ m, n = m + (d + 1) := ⟨n - (d + 1), by omega⟩
    obtain ⟨hlt, he⟩ := List.getElem?_eq_some_iff.1 hk
    have h := hb m H S k hlt s h0
    rw [← Nat.add_assoc, ← construct_short _ _ _ cd hc hi, ← he, List.set_getElem_self, he] at h
    exact h
  unfold after at h
  rcases hx : R.read s with ⟨_ | x, s'⟩
  · simp only [hx] at h ⊢
    exact h
  · simp only [hx] at h ⊢
    obtain ⟨cls, l, hl⟩ := hs x
    have hreg := hr x
    refine ⟨h, ?_, ?_, length_placeObj _ _ _ _ _, held_placeObj rfl rfl rfl _⟩
    · rw [hl]; exact placeObj_shows _ _ _ H cls l
    · rw [hl] at hreg ⊢; exact placeObj_navigable H k cls l hreg

theorem Constructs.agrees {name : String} {R : Reader} (h : Constructs name R) : Agrees name R := by
  obtain ⟨make, h⟩ := h
  refine ⟨make 0 0, fun b => ?_⟩
  have h := h [] [Stream.new b] 0 (Stream.new b) rfl (fun _ => rfl)
  rcases hx : R.read (Stream.new b) with ⟨_ | x, s⟩
  · simp only [hx] at h ⊢
    exact h
  · simp only [hx] at h ⊢
    exact ⟨h.1, h.2.1, navigable_alone h.2.2.1, h.2.2.2⟩

/-- Where a class that depends on another object ends on its own. -/
theorem unusable {name : String} (d : Nat) (hd : d + 1 ≤ 13) {cd : ClassDef}
    (hc : library.class name = some cd) (hi : cd.methods.lookup "__init__" = some init)
    (hb : ∀ (m : Nat) (H : List Obj) (S : List Stream) (k : Nat), k < S.length → ∀ (s : Stream),
      ∃ e s', ((calls library (m + (d + 1))).construct name [.io k, .pv .none, .pv .none]).run ⟨H, S.set k s⟩ =
        .raise e ⟨H, S.set k s'⟩ ∧ (e = .attribute ∨ e = .eof)) : Unusable name := by
  intro n b hn
  obtain ⟨m, rfl⟩ : ∃ m, n = m + (d + 1) := ⟨n - (d + 1), by omega⟩
  obtain ⟨e, s, h, he⟩ := hb m [] [Stream.new b] 0 (by simp) (Stream.new b)
  refine ⟨e, s, ?_, he⟩
  unfold fromBytes
  rw [← Nat.add_assoc, construct_short _ _ _ cd hc hi]
  exact h

@[py] theorem getattr_none (c : Calls) (x : String) : getattr c (.pv .none) x = raise .attribute := rfl

/-- It raises nothing but EOFError. -/
def OnlyEof {α : Type} (r : Rd α) : Prop := ∀ s e s', r s = (.error e, s') → e = .eof

theorem onlyEof_bind {α β : Type} {r : Rd α} {f : α → Rd β} (hr : OnlyEof r) (hf : ∀ a, OnlyEof (f a)) : OnlyEof (r >>= f) := by
  intro s e s' h
  change Rd.bind r f s = _ at h
  unfold Rd.bind at h
  rcases hx : r s with ⟨_ | a, s1⟩
  · rw [hx] at h
    cases h
    exact hr _ _ _ hx
  · rw [hx] at h
    exact hf _ _ _ _ h

theorem onlyEof_pure {α : Type} (a : α) : OnlyEof (pure a : Rd α) := by intro s e s' h; cases h

theorem onlyEof_readBytes (n : Nat) : OnlyEof (readBytes n) := by
  refine onlyEof_bind (fun s e s' h => by cases h) fun _ s e s' h => ?_
  unfold readBytesNotAligned at h
  dsimp only at h
  split at h <;> cases h
  rfl

theorem onlyEof_readU1 : OnlyEof readU1 := onlyEof_bind (onlyEof_readBytes 1) fun _ => onlyEof_pure _
theorem onlyEof_readU2be : OnlyEof readU2be := onlyEof_bind (onlyEof_readBytes 2) fun _ => onlyEof_pure _

theorem after_ends {α : Type} {r : Rd α} (hr : OnlyEof r) {H : List Obj} {S : List Stream} {k : Nat} (s : Stream) {ok : α → Stream → Out Val}
    (h : ∀ a s, ∃ e s', ok a s = .raise e ⟨H, S.set k s'⟩ ∧ (e = .attribute ∨ e = .eof)) :
    ∃ e s', after r s (fun e s => .raise e ⟨H, S.set k s⟩) ok = .raise e ⟨H, S.set k s'⟩ ∧ (e = .attribute ∨ e = .eof) := by
  unfold after
  rcases hx : r s with ⟨_ | a, s1⟩
  · exact ⟨_, _, rfl, .inr (hr _ _ _ hx)⟩
  · exact h a s1

end Dmr.Py
