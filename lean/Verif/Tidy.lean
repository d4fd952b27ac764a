import Verif.Local
/-
`Tidy r`: the reader `r` leaves no stale bits: when no bits are pending after it, the bit buffer is empty.
-/

namespace Dmr

/-- The bit buffer holds no more than the pending bits. -/
def Stream.Tidy (s : Stream) : Prop := s.bitsLeft = 0 → s.bits = 0

/-- See the head of this file. -/
def Tidy (r : Rd α) : Prop := ∀ s a s1, s.Tidy → r s = (.ok a, s1) → s1.Tidy

namespace Tidy

theorem bind {r : Rd α} {k : α → Rd β} (hr : Tidy r) (hk : ∀ a, Tidy (k a)) : Tidy (r >>= k) := by
  intro s b s2 hs e
  change Rd.bind r k s = _ at e
  unfold Rd.bind at e
  rcases h : r s with ⟨_ | a, s1⟩
  · rw [h] at e; cases e
  · rw [h] at e; exact hk a _ _ _ (hr s a s1 hs h) e

theorem pure' (a : α) : Tidy (Pure.pure a : Rd α) := by intro s b s1 hs e; cases e; exact hs

theorem throw (e : PyErr) : Tidy (Rd.throw e : Rd α) := by intro s b s1 hs e; cases e

theorem ite {c : Prop} [Decidable c] {r r' : Rd α} (h : Tidy r) (h' : Tidy r') : Tidy (if c then r else r') := by
  split
  · exact h
  · exact h'

theorem alignToByte : Tidy Dmr.alignToByte := by intro s a s1 hs e; cases e; exact fun _ => rfl

theorem readBytesNotAligned (n : Nat) : Tidy (Dmr.readBytesNotAligned n) := by
  intro s a s1 hs e
  unfold Dmr.readBytesNotAligned at e
  dsimp only at e
  split at e
  · cases e; exact hs
  · cases e

theorem readBytes (n : Nat) : Tidy (Dmr.readBytes n) := bind alignToByte fun _ => readBytesNotAligned n

theorem readBytesInt (n : Int) : Tidy (Dmr.readBytesInt n) :=
  bind alignToByte fun _ => ite (throw _) (readBytesNotAligned _)

theorem readBytesFull : Tidy Dmr.readBytesFull := by
  refine bind alignToByte fun _ => ?_
  intro s a s1 hs e; cases e; exact hs

theorem isEof : Tidy Dmr.isEof := by intro s a s1 hs e; cases e; exact hs

theorem readBitsIntBe (n : Nat) : Tidy (Dmr.readBitsIntBe n) := by
  intro s a s1 hs e
  unfold Dmr.readBitsIntBe at e
  dsimp only at e
  split at e
  · unfold Dmr.readBytesNotAligned at e
    dsimp only at e
    split at e
    · next h =>
      split at h
      · cases h
      · cases e
    · next h =>
      split at h
      · cases h; cases e
        intro (h0 : Int.toNat _ = 0)
        show _ &&& _ = 0
        rw [h0]; exact Nat.and_zero _
      · cases h
  · cases e
    intro (h0 : Int.toNat _ = 0)
    show _ &&& _ = 0
    rw [h0]; exact Nat.and_zero _

theorem readFlag : Tidy Dmr.readFlag := bind (readBitsIntBe 1) fun _ => pure' _
theorem readU1 : Tidy Dmr.readU1 := bind (readBytes _) fun _ => pure' _
theorem readU2be : Tidy Dmr.readU2be := bind (readBytes _) fun _ => pure' _
theorem readU2le : Tidy Dmr.readU2le := bind (readBytes _) fun _ => pure' _
theorem readU4be : Tidy Dmr.readU4be := bind (readBytes _) fun _ => pure' _
theorem readU4le : Tidy Dmr.readU4le := bind (readBytes _) fun _ => pure' _
theorem readS2be : Tidy Dmr.readS2be := bind (readBytes _) fun _ => pure' _

theorem validateEq [DecidableEq α] (v e : α) (p : String) : Tidy (Dmr.validateEq v e p) := ite (pure' _) (throw _)

theorem optionally {r : Rd α} (c : Bool) (h : Tidy r) : Tidy (Dmr.optionally c r) :=
  ite (bind h fun _ => pure' _) (pure' _)

theorem repeatN {r : Rd α} (n : Nat) (h : Tidy r) : Tidy (Dmr.repeatN n r) := by
  induction n with
  | zero => exact pure' _
  | succ n ih => exact bind h fun _ => bind ih fun _ => pure' _

theorem asEnum {E : Type} [PyEnum E] {r : Rd Nat} (h : Tidy r) : Tidy (Dmr.asEnum E r) := bind h fun _ => pure' _

theorem decodeWith {c : Bytes → Option PyStr} {r : Rd Bytes} (h : Tidy r) : Tidy (Dmr.decodeWith c r) := by
  refine bind h fun b => ?_
  show Tidy (match c b with | some s => _ | none => _)
  split
  · exact pure' _
  · exact throw _

end Tidy

/-- Prove `Tidy` for the body of a decoder, given the facts about its parts. -/
macro "tidy_reader" "[" ls:term,* "]" : tactic => do
  let alts ← ls.getElems.mapM fun t => `(tacticSeq| with_reducible exact $t)
  `(tactic| repeat' (first
    | assumption
    | with_reducible exact Tidy.pure' _ | with_reducible exact Tidy.throw _ | with_reducible exact Tidy.alignToByte | with_reducible exact Tidy.readBytes _ | with_reducible exact Tidy.readBytesInt _
    | with_reducible exact Tidy.readBitsIntBe _ | with_reducible exact Tidy.readFlag | with_reducible exact Tidy.readU1 | with_reducible exact Tidy.readU2be | with_reducible exact Tidy.readU2le
    | with_reducible exact Tidy.readU4be | with_reducible exact Tidy.readU4le | with_reducible exact Tidy.readS2be | with_reducible exact Tidy.validateEq _ _ _
    | with_reducible exact Tidy.readBytesFull | with_reducible exact Tidy.isEof
    $[| $alts]*
    | with_reducible apply Tidy.optionally | with_reducible apply Tidy.repeatN | with_reducible apply Tidy.asEnum
    | with_reducible apply Tidy.decodeWith | with_reducible apply Tidy.ite
    | (with_reducible apply Tidy.bind; rotate_left; intro _; rotate_right)
    | split))

end Dmr
