import Verif.Py.VersionData
import Verif.Py.Client
/-
C78: which version of kaitaistruct is installed makes no difference.
-/

set_option autoImplicit false
set_option linter.unusedSectionVars false

namespace Dmr.Py

open Threads (R)

/-- What two runs come to is the same: the value and the memory, or the exception and the memory; but after an AttributeError (or if the
model's bound on nested calls is too small) nothing is said about the memory. -/
def SameEnd {α : Type} : Out α → Out α → Prop
  | .ok a σ, .ok b τ => a = b ∧ σ = τ
  | .raise e σ, .raise f τ => e = f ∧ (e = .attribute ∨ e = .diverge ∨ σ = τ)
  | _, _ => False

namespace Threads.Version

theorem Rel.sameEnd {α : Type} {p : R α} (h : Rel false Eq Eq (fun _ => True) p) (σ : State) : SameEnd (p.run11 σ) (p.run σ) := by
  have h := h σ σ rfl
  revert h
  rcases p.run11 σ with ⟨a, τ⟩ | ⟨e, τ⟩ <;> rcases p.run σ with ⟨b, υ⟩ | ⟨e', υ⟩ <;> intro h
  · exact ⟨h.1, h.2.2⟩
  · exact False.elim h
  · exact False.elim h
  · obtain ⟨rfl, h⟩ := h
    exact ⟨rfl, by rcases h with ⟨_, h | h⟩ | h <;> simp [h]⟩

theorem same_decoding (n : Nat) (cls : String) (b : Bytes) : Same ((decoding cls b).thread n) := by
  unfold Task.thread
  exact same_call library (library_same11 n) (library_bare n) _ rfl _

theorem rel_getattr_data (n : Nat) (v : Val) : Rel false Eq Eq (fun _ => True) (getattr (calls library (n + 4)) v "data") := by
  rw [getattr.eq_def]
  split
  · refine rel_bind (same_get _).rel fun a _ => ?_
    cases a.attrs.lookup _
    · exact library_data_rel n _
    · exact (same_pure _).rel
  · exact (same_pure _).rel
  · exact (same_raise _).rel

theorem rel_begin {ι : Type} (n : Nat) (all : ι → List Answer) (i : ι) (j : Nat) : Rel false Eq Eq (fun _ => True) ((Request.get j "data" : Request ι).begin (n + 4) all i) := by
  unfold Request.begin
  dsimp only
  split
  · exact rel_getattr_data _ _
  · exact (same_raise _).rel

theorem same_begin {ι : Type} (n : Nat) (all : ι → List Answer) (i : ι) (r : Request ι) (hr : ∀ k, r ≠ .get k "data") : Same (r.begin n all i) := by
  have hready : ∀ a : Answer, Same a.ready := fun a => by
    cases a
    · exact same_raise _
    · exact same_pure _
  cases r with
  | decode cls b => exact same_decoding _ _ _
  | get k p =>
    unfold Request.begin
    dsimp only
    split
    · exact same_getattr (library_same11 n) _ fun h => hr k (h ▸ rfl)
    · exact same_raise _
  | item k m =>
    unfold Request.begin
    dsimp only
    split
    · split
      · exact same_pure _
      · exact same_raise _
    · exact same_raise _
  | type k =>
    unfold Request.begin
    dsimp only
    split
    · exact same_bind (same_get _) fun o => same_pure _
    · exact same_raise _
  | borrow j k =>
    unfold Request.begin
    dsimp only
    split
    · exact hready _
    · exact same_raise _

end Threads.Version

open Threads.Version

/-- `cls.from_bytes(b)` comes to the same with either version, whatever the class, the bytes and the memory: the same value or exception, and the
same memory. -/
theorem C78_from_bytes (n : Nat) (cls : String) (b : Bytes) (σ : State) : ((decoding cls b).thread n).run11 σ = ((decoding cls b).thread n).run σ :=
  same_decoding n cls b σ

/-- So does the class itself, called with any arguments. -/
theorem C78_constructor (n : Nat) (cls : String) (args : List Val) (σ : State) :
    ((Threads.calls library n).construct cls args).run11 σ = ((Threads.calls library n).construct cls args).run σ := (library_same11 n).construct cls args σ

/-- And any attribute or property of any value but `data`. -/
theorem C78_getattr (n : Nat) (v : Val) (x : String) (hx : x ≠ "data") (σ : State) :
    (Threads.getattr (Threads.calls library n) v x).run11 σ = (Threads.getattr (Threads.calls library n) v x).run σ := same_getattr (library_same11 n) v hx σ

/-- And `data`, which looks at the stream of the outermost object; but after an AttributeError nothing is said about the memory. -/
theorem C78_data (n : Nat) (v : Val) (σ : State) :
    SameEnd ((Threads.getattr (Threads.calls library (n + 4)) v "data").run11 σ) ((Threads.getattr (Threads.calls library (n + 4)) v "data").run σ) :=
  (rel_getattr_data n v).sameEnd σ

/-- A program that uses the library on its own, for at most `m` requests; what it asks for next depends on all that it has seen. `go` runs a
request. -/
def session (go : R Val → State → Out Val) (n : Nat) (program : Program' Unit) : Nat → List Answer → State → List Answer × State
  | 0, got, σ => (got, σ)
  | m + 1, got, σ =>
    match program (got.map Answer.seen) with
    | none => (got, σ)
    | some r =>
      match go (r.begin n (fun _ => got) ()) σ with
      | .ok v τ => session go n program m (got ++ [.ok v]) τ
      | .raise e τ => session go n program m (got ++ [.error e]) τ

/-- When the program asks for `data`, it does not get an AttributeError. -/
def Tidy (program : Program' Unit) (answers : List Answer) : Prop :=
  ∀ m k, program ((answers.take m).map Answer.seen) = some (.get k "data") → answers[m]? ≠ some (.error .attribute) ∧ answers[m]? ≠ some (.error .diverge)

theorem session_got (go : R Val → State → Out Val) (n : Nat) (program : Program' Unit) : ∀ (m : Nat) (got : List Answer) (σ : State), got <+: (session go n program m got σ).1
  | 0, got, σ => List.prefix_refl _
  | m + 1, got, σ => by
    rw [session]
    split
    · exact List.prefix_refl _
    · split
      · exact (List.prefix_append _ _).trans (session_got go n program m _ _)
      · exact (List.prefix_append _ _).trans (session_got go n program m _ _)

/-- Such a program gets the same answers with either version, and leaves the same memory. -/
theorem C78_session (n : Nat) (program : Program' Unit) : ∀ (m : Nat) (got : List Answer) (σ : State),
    Tidy program (session R.run (n + 4) program m got σ).1 → session R.run11 (n + 4) program m got σ = session R.run (n + 4) program m got σ
  | 0, _, _, _ => rfl
  | m + 1, got, σ, h => by
    rw [session] at h ⊢
    rw [session]
    split
    · rfl
    · rename_i r hr
      rw [hr] at h
      dsimp only at h
      by_cases hd : ∃ k, r = .get k "data"
      · obtain ⟨k, rfl⟩ := hd
        have h1 := (rel_begin n (fun _ => got) () k).sameEnd σ
        revert h h1
        rcases ((Request.get k "data").begin (n + 4) (fun _ => got) ()).run11 σ with ⟨a, τ⟩ | ⟨e, τ⟩ <;>
          rcases ((Request.get k "data").begin (n + 4) (fun _ => got) ()).run σ with ⟨b, υ⟩ | ⟨f, υ⟩ <;> intro h h1
        · obtain ⟨rfl, rfl⟩ : _ ∧ _ := h1
          exact C78_session n program m _ _ h
        · exact False.elim h1
        · exact False.elim h1
        · obtain ⟨rfl, h2⟩ : _ ∧ _ := h1
          have hp : got ++ [.error e] <+: (session R.run (n + 4) program m (got ++ [.error e]) υ).1 := session_got _ _ _ _ _ _
          have h3 := h got.length k (by
            obtain ⟨l, hl⟩ := hp
            rw [← hl, List.append_assoc, List.take_left]
            exact hr)
          have h4 : (session R.run (n + 4) program m (got ++ [.error e]) υ).1[got.length]? = some (.error e) := by
            obtain ⟨l, hl⟩ := hp
            rw [← hl, List.append_assoc, List.getElem?_append_right (Nat.le_refl _), Nat.sub_self]
            rfl
          rw [h4] at h3
          rcases h2 with rfl | rfl | rfl
          · exact absurd rfl h3.1
          · exact absurd rfl h3.2
          · exact C78_session n program m _ _ h
      · rw [same_begin (n + 4) (fun _ => got) () r (fun k hk => hd ⟨k, hk⟩) σ]
        revert h
        rcases (r.begin (n + 4) (fun _ => got) ()).run σ with ⟨a, τ⟩ | ⟨e, τ⟩ <;> intro h
        · exact C78_session n program m _ _ h
        · exact C78_session n program m _ _ h

/-- A header of a confirmed packet, its part, and two of the fields of that. -/
def someRequests : Program' Unit := fun seen =>
  [.decode "Etsi.DmrDataHeader" [0x43, 0x40, 0, 0, 9, 0x23, 0x37, 0x45, 0x81, 0x12, 0xAA, 0xBB], .get 0 "data", .get 1 "sap_identifier",
    .get 1 "blocks_to_follow"][seen.length]?

example : session R.run11 4 someRequests 9 [] ⟨[], []⟩ = session R.run 4 someRequests 9 [] ⟨[], []⟩ := by
  refine C78_session 0 someRequests 9 [] _ ?_
  have h : (session R.run 4 someRequests 9 [] ⟨[], []⟩).1.map (fun a => match a with | .ok _ => true | .error _ => false) = [true, true, true, true] := by decide +kernel
  generalize (session R.run 4 someRequests 9 [] ⟨[], []⟩).1 = answers at h
  intro m k hm
  have ha : ∀ e, answers[m]? ≠ some (.error e) := by
    intro e he
    have h2 := congrArg (fun l : List Bool => l[m]?) h
    change (List.map _ answers)[m]? = _ at h2
    rw [List.getElem?_map, he] at h2
    match m with
    | 0 | 1 | 2 | 3 => cases h2
    | m + 4 => cases h2
  exact ⟨ha _, ha _⟩

/-- What a run comes to, if it is a number. -/
def numberOf : Out Val → Option Int
  | .ok (.pv (.int v)) _ => some v
  | _ => none

/-- The versions are not the same: reading four bits, `seek(1)` and reading four bits. -/
theorem C78_they_differ : ∃ (p : R Val) (b : Bytes), ¬ SameEnd (p.run11 ⟨[], [Stream.new b]⟩) (p.run ⟨[], [Stream.new b]⟩) := by
  refine ⟨.io 0 "read_bits_int_be" [.int 4] fun _ => .io 0 "seek" [.int 1] fun _ => .io 0 "read_bits_int_be" [.int 4] .done, [0x12, 0x34], ?_⟩
  intro h
  have h1 : numberOf ((R.io 0 "read_bits_int_be" [.int 4] fun _ => .io 0 "seek" [.int 1] fun _ => .io 0 "read_bits_int_be" [.int 4] .done : R Val).run11
    ⟨[], [Stream.new [0x12, 0x34]]⟩) = some 3 := by decide +kernel
  have h2 : numberOf ((R.io 0 "read_bits_int_be" [.int 4] fun _ => .io 0 "seek" [.int 1] fun _ => .io 0 "read_bits_int_be" [.int 4] .done : R Val).run
    ⟨[], [Stream.new [0x12, 0x34]]⟩) = some 2 := by decide +kernel
  revert h h1 h2
  generalize R.run11 _ _ = x
  generalize R.run _ _ = y
  intro h h1 h2
  match x, y with
  | .ok a σ, .ok b τ =>
    obtain ⟨rfl, rfl⟩ : _ ∧ _ := h
    rw [h1] at h2
    cases h2
  | .ok _ _, .raise _ _ => exact h
  | .raise _ _, .ok _ _ => exact h
  | .raise _ _, .raise _ _ => cases h1

end Dmr.Py
