import Verif.LocalList
/-
What more bytes change: a reader grows (`Grows`) if on a stream with more bytes at the end it does the same thing as before, step for
step, with the same result or the same exception, unless it had run out of bytes.
-/

set_option autoImplicit false

namespace Dmr

variable {α β : Type}

/-- The same stream with more bytes at the end. -/
def Stream.more (s : Stream) (w : Bytes) : Stream := { s with buf := s.buf ++ w }

/-- See the head of this file. -/
def Grows (r : Rd α) : Prop := ∀ s w, (r s).1 = .error .eof ∨ r (s.more w) = ((r s).1, (r s).2.more w)

theorem Grows.pure (a : α) : Grows (Rd.pure a) := fun _ _ => .inr rfl
theorem Grows.pure' (a : α) : Grows (Pure.pure a : Rd α) := fun _ _ => .inr rfl
theorem Grows.throw (e : PyErr) : Grows (Rd.throw e : Rd α) := fun _ _ => .inr rfl

theorem Grows.bind {r : Rd α} {k : α → Rd β} (hr : Grows r) (hk : ∀ a, Grows (k a)) : Grows (r >>= k) := by
  intro s w
  show (Rd.bind r k s).1 = _ ∨ Rd.bind r k (s.more w) = ((Rd.bind r k s).1, (Rd.bind r k s).2.more w)
  unfold Rd.bind
  rcases hr s w with h | h
  · rcases hs : r s with ⟨e | a, s1⟩
    · rw [hs] at h; cases h; exact .inl rfl
    · rw [hs] at h; cases h
  · rw [h]
    rcases hs : r s with ⟨e | a, s1⟩
    · exact .inr rfl
    · exact hk a s1 w

theorem Grows.ite {c : Prop} [Decidable c] {r r' : Rd α} (h : Grows r) (h' : Grows r') : Grows (if c then r else r') := by
  split
  · exact h
  · exact h'

theorem Grows.alignToByte : Grows Dmr.alignToByte := fun _ _ => .inr rfl
theorem Grows.posIo : Grows Dmr.posIo := fun _ _ => .inr rfl
theorem Grows.seekIo (n : Nat) : Grows (Dmr.seekIo n) := fun _ _ => .inr rfl

theorem Grows.readBytesNotAligned (n : Nat) : Grows (Dmr.readBytesNotAligned n) := by
  intro s w
  unfold Dmr.readBytesNotAligned
  simp only
  by_cases h : n ≤ ((s.buf.drop s.pos).take n).length
  · right
    have e : ((s.more w).buf.drop (s.more w).pos).take n = (s.buf.drop s.pos).take n := by
      show ((s.buf ++ w).drop s.pos).take n = _
      rw [List.drop_append, List.take_append_of_le_length]
      rw [List.length_take] at h
      omega
    rw [e, if_pos h, if_pos h]
    rfl
  · left
    rw [if_neg h]

theorem Grows.readBytes (n : Nat) : Grows (Dmr.readBytes n) := Grows.bind Grows.alignToByte fun _ => Grows.readBytesNotAligned n

theorem Grows.readBytesInt (n : Int) : Grows (Dmr.readBytesInt n) :=
  Grows.bind Grows.alignToByte fun _ => Grows.ite (Grows.throw _) (Grows.readBytesNotAligned _)

theorem Grows.setBits (b l : Nat) : Grows (Dmr.setBits b l) := fun _ _ => .inr rfl

theorem Grows.readBitsIntBe (n : Nat) : Grows (Dmr.readBitsIntBe n) := by
  rw [readBitsIntBe_eq]
  have h : ∀ b l, Grows (bitsBody n b l) := by
    intro b l
    unfold bitsBody
    apply Grows.ite
    · exact Grows.bind (Grows.setBits _ _) fun _ => Grows.bind (Grows.readBytesNotAligned _) fun _ =>
        Grows.bind (Grows.setBits _ _) fun _ => Grows.pure' _
    · exact Grows.bind (Grows.setBits _ _) fun _ => Grows.pure' _
  exact fun s w => h s.bits s.bitsLeft s w

theorem Grows.readFlag : Grows Dmr.readFlag := Grows.bind (Grows.readBitsIntBe 1) fun _ => Grows.pure' _
theorem Grows.readU1 : Grows Dmr.readU1 := Grows.bind (Grows.readBytes _) fun _ => Grows.pure' _
theorem Grows.readU2be : Grows Dmr.readU2be := Grows.bind (Grows.readBytes _) fun _ => Grows.pure' _
theorem Grows.readU2le : Grows Dmr.readU2le := Grows.bind (Grows.readBytes _) fun _ => Grows.pure' _
theorem Grows.readU4be : Grows Dmr.readU4be := Grows.bind (Grows.readBytes _) fun _ => Grows.pure' _
theorem Grows.readU4le : Grows Dmr.readU4le := Grows.bind (Grows.readBytes _) fun _ => Grows.pure' _
theorem Grows.readS2be : Grows Dmr.readS2be := Grows.bind (Grows.readBytes _) fun _ => Grows.pure' _

theorem Grows.validateEq [DecidableEq α] (v e : α) (p : String) : Grows (Dmr.validateEq v e p) :=
  Grows.ite (Grows.pure _) (Grows.throw _)

theorem Grows.optionally {r : Rd α} (c : Bool) (h : Grows r) : Grows (Dmr.optionally c r) :=
  Grows.ite (Grows.bind h fun _ => Grows.pure' _) (Grows.pure' _)

theorem Grows.repeatN {r : Rd α} (n : Nat) (h : Grows r) : Grows (Dmr.repeatN n r) := by
  induction n with
  | zero => exact Grows.pure' _
  | succ n ih => exact Grows.bind h fun _ => Grows.bind ih fun _ => Grows.pure' _

theorem Grows.asEnum {E : Type} [PyEnum E] {r : Rd Nat} (h : Grows r) : Grows (Dmr.asEnum E r) :=
  Grows.bind h fun _ => Grows.pure' _

theorem Grows.decodeWith {c : Bytes → Option PyStr} {r : Rd Bytes} (h : Grows r) : Grows (Dmr.decodeWith c r) := by
  refine Grows.bind h fun b => ?_
  show Grows (match c b with | some s => _ | none => _)
  split
  · exact Grows.pure' _
  · exact Grows.throw _

/-- Prove `Grows` for the body of a decoder, given the facts about its parts. -/
macro "grow_reader" "[" ls:term,* "]" : tactic => do
  let alts ← ls.getElems.mapM fun t => `(tacticSeq| with_reducible exact $t)
  `(tactic| repeat' (first
    | assumption
    | with_reducible exact Grows.pure' _ | with_reducible exact Grows.throw _ | with_reducible exact Grows.alignToByte | with_reducible exact Grows.readBytes _ | with_reducible exact Grows.readBytesInt _
    | with_reducible exact Grows.readBitsIntBe _ | with_reducible exact Grows.readFlag | with_reducible exact Grows.readU1 | with_reducible exact Grows.readU2be | with_reducible exact Grows.readU2le
    | with_reducible exact Grows.readU4be | with_reducible exact Grows.readU4le | with_reducible exact Grows.readS2be | with_reducible exact Grows.validateEq _ _ _
    | with_reducible exact Grows.posIo | with_reducible exact Grows.seekIo _
    $[| $alts]*
    | with_reducible apply Grows.optionally | with_reducible apply Grows.repeatN | with_reducible apply Grows.asEnum
    | with_reducible apply Grows.decodeWith | with_reducible apply Grows.ite
    | (with_reducible apply Grows.bind; rotate_left; intro _; rotate_right)
    | split))

end Dmr
