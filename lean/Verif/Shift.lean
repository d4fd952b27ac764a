import Verif.Local
/-
`Shifts r`: the reader `r` does not depend on where in the stream it starts: with other bytes in front of the stream it gives the
same result, or the same exception, and ends that many bytes further on.
-/

namespace Dmr

/-- The stream with the bytes `pre` in front, at the same place among the old bytes. -/
def Stream.shift (pre : Bytes) (s : Stream) : Stream := { s with buf := pre ++ s.buf, pos := pre.length + s.pos }

/-- See the head of this file; from the state `s`. -/
def ShiftsAt (r : Rd α) (s : Stream) : Prop := ∀ pre : Bytes, r (s.shift pre) = ((r s).1, (r s).2.shift pre)

/-- See the head of this file. -/
def Shifts (r : Rd α) : Prop := ∀ s : Stream, ShiftsAt r s

theorem ShiftsAt.bind {r : Rd α} {k : α → Rd β} {s : Stream} (hr : ShiftsAt r s)
    (hk : ∀ a s1, r s = (.ok a, s1) → ShiftsAt (k a) s1) : ShiftsAt (r >>= k) s := by
  intro pre
  show Rd.bind r k _ = ((Rd.bind r k s).1, (Rd.bind r k s).2.shift pre)
  unfold Rd.bind
  rw [hr pre]
  rcases h : r s with ⟨e | a, s1⟩
  · rfl
  · exact hk a s1 h pre

namespace Shifts

theorem bind {r : Rd α} {k : α → Rd β} (hr : Shifts r) (hk : ∀ a, Shifts (k a)) : Shifts (r >>= k) :=
  fun s => ShiftsAt.bind (hr s) fun a s1 _ => hk a s1

theorem pure' (a : α) : Shifts (Pure.pure a : Rd α) := fun _ _ => rfl

theorem throw (e : PyErr) : Shifts (Rd.throw e : Rd α) := fun _ _ => rfl

theorem ite {c : Prop} [Decidable c] {r r' : Rd α} (h : Shifts r) (h' : Shifts r') : Shifts (if c then r else r') := by
  split
  · exact h
  · exact h'

theorem alignToByte : Shifts Dmr.alignToByte := fun _ _ => rfl

theorem readBytesNotAligned (n : Nat) : Shifts (Dmr.readBytesNotAligned n) := by
  intro s pre
  unfold Dmr.readBytesNotAligned Stream.shift
  have : (pre ++ s.buf).drop (pre.length + s.pos) = s.buf.drop s.pos := by
    rw [← List.drop_drop, List.drop_left]
  simp only [this]
  split <;> simp only [Nat.add_assoc]

theorem readBytes (n : Nat) : Shifts (Dmr.readBytes n) := bind alignToByte fun _ => readBytesNotAligned n

theorem readBytesInt (n : Int) : Shifts (Dmr.readBytesInt n) :=
  bind alignToByte fun _ => ite (throw _) (readBytesNotAligned _)

theorem readRest : Shifts Dmr.readRest := by
  intro s pre
  unfold Dmr.readRest Stream.shift
  have : (pre ++ s.buf).drop (pre.length + s.pos) = s.buf.drop s.pos := by
    rw [← List.drop_drop, List.drop_left]
  simp only [this, List.length_append, Nat.add_max_add_left]

theorem readBytesFull : Shifts Dmr.readBytesFull := bind alignToByte fun _ => readRest

theorem isEof : Shifts Dmr.isEof := by
  intro s pre
  unfold Dmr.isEof Stream.shift
  simp only [List.length_append, Nat.add_le_add_iff_left]

theorem setBits (b l : Nat) : Shifts (Dmr.setBits b l) := fun _ _ => rfl

theorem readBitsIntBe (n : Nat) : Shifts (Dmr.readBitsIntBe n) := by
  rw [readBitsIntBe_eq]
  have h (b l : Nat) : Shifts (bitsBody n b l) := by
    unfold bitsBody
    apply ite
    · exact bind (setBits _ _) fun _ => bind (readBytesNotAligned _) fun _ => bind (setBits _ _) fun _ => pure' _
    · exact bind (setBits _ _) fun _ => pure' _
  intro s pre
  exact h s.bits s.bitsLeft s pre

theorem readFlag : Shifts Dmr.readFlag := bind (readBitsIntBe 1) fun _ => pure' _
theorem readU1 : Shifts Dmr.readU1 := bind (readBytes _) fun _ => pure' _
theorem readU2be : Shifts Dmr.readU2be := bind (readBytes _) fun _ => pure' _
theorem readU2le : Shifts Dmr.readU2le := bind (readBytes _) fun _ => pure' _
theorem readU4be : Shifts Dmr.readU4be := bind (readBytes _) fun _ => pure' _
theorem readU4le : Shifts Dmr.readU4le := bind (readBytes _) fun _ => pure' _
theorem readS2be : Shifts Dmr.readS2be := bind (readBytes _) fun _ => pure' _

theorem validateEq [DecidableEq α] (v e : α) (p : String) : Shifts (Dmr.validateEq v e p) := ite (pure' _) (throw _)

theorem optionally {r : Rd α} (c : Bool) (h : Shifts r) : Shifts (Dmr.optionally c r) :=
  ite (bind h fun _ => pure' _) (pure' _)

theorem repeatN {r : Rd α} (n : Nat) (h : Shifts r) : Shifts (Dmr.repeatN n r) := by
  induction n with
  | zero => exact pure' _
  | succ n ih => exact bind h fun _ => bind ih fun _ => pure' _

theorem asEnum {E : Type} [PyEnum E] {r : Rd Nat} (h : Shifts r) : Shifts (Dmr.asEnum E r) := bind h fun _ => pure' _

theorem decodeWith {c : Bytes → Option PyStr} {r : Rd Bytes} (h : Shifts r) : Shifts (Dmr.decodeWith c r) := by
  refine bind h fun b => ?_
  show Shifts (match c b with | some s => _ | none => _)
  split
  · exact pure' _
  · exact throw _

theorem repeatUntil {r : Rd α} {stop : α → Rd Bool} (h : Shifts r) (hs : ∀ x, Shifts (stop x)) (fuel : Nat) :
    Shifts (Dmr.repeatUntil fuel r stop) := by
  induction fuel with
  | zero => exact throw _
  | succ n ih => exact bind h fun _ => bind (hs _) fun _ => ite (pure' _) (bind ih fun _ => pure' _)

/-- Only the difference of size and position matters. -/
theorem sizePos {k : Nat → Nat → Rd α} (h : ∀ n q, Shifts (k n q)) (hs : ∀ m n q, k (m + n) (m + q) = k n q) :
    Shifts (sizeIo >>= fun n => posIo >>= fun q => k n q) := by
  intro s pre
  show k (pre ++ s.buf).length (pre.length + s.pos) (s.shift pre) = _
  rw [List.length_append, hs]
  exact h _ _ s pre

end Shifts

/-- Prove `Shifts` for the body of a decoder, given the facts about its parts. -/
macro "shift_reader" "[" ls:term,* "]" : tactic => do
  let alts ← ls.getElems.mapM fun t => `(tacticSeq| with_reducible exact $t)
  `(tactic| repeat' (first
    | assumption
    | with_reducible exact Shifts.pure' _ | with_reducible exact Shifts.throw _ | with_reducible exact Shifts.alignToByte | with_reducible exact Shifts.readBytes _ | with_reducible exact Shifts.readBytesInt _
    | with_reducible exact Shifts.readBitsIntBe _ | with_reducible exact Shifts.readFlag | with_reducible exact Shifts.readU1 | with_reducible exact Shifts.readU2be | with_reducible exact Shifts.readU2le
    | with_reducible exact Shifts.readU4be | with_reducible exact Shifts.readU4le | with_reducible exact Shifts.readS2be | with_reducible exact Shifts.validateEq _ _ _
    | with_reducible exact Shifts.readBytesFull | with_reducible exact Shifts.isEof
    $[| $alts]*
    | with_reducible apply Shifts.optionally | with_reducible apply Shifts.repeatN | with_reducible apply Shifts.asEnum
    | with_reducible apply Shifts.decodeWith | with_reducible apply Shifts.ite
    | (with_reducible apply Shifts.bind; rotate_left; intro _; rotate_right)
    | split))

/-! ### Loops -/

/-- The reader moves forward, within the stream. -/
def Forward (r : Rd α) : Prop :=
  ∀ s a s1, r s = (.ok a, s1) → s1.buf = s.buf ∧ s.pos < s1.pos ∧ s1.pos ≤ s.buf.length

/-- Enough fuel is as good as more. -/
theorem repeatUntil_fuel {r : Rd α} {stop : α → Rd Bool} (hr : Forward r) (hq : ∀ x s, (stop x s).2 = s) :
    ∀ (f f' : Nat) (s : Stream), s.buf.length - s.pos < f → s.buf.length - s.pos < f' →
      repeatUntil f r stop s = repeatUntil f' r stop s := by
  intro f
  induction f with
  | zero => intro f' s h; omega
  | succ f ih =>
    intro f' s h h'
    cases f' with
    | zero => omega
    | succ f' =>
      show Rd.bind r _ s = Rd.bind r _ s
      unfold Rd.bind
      rcases e : r s with ⟨_ | a, s1⟩
      · rfl
      · obtain ⟨e1, e2, e3⟩ := hr s a s1 e
        show Rd.bind (stop a) _ s1 = Rd.bind (stop a) _ s1
        unfold Rd.bind
        have hq1 := hq a s1
        rcases e4 : stop a s1 with ⟨_ | b, s2⟩
        · rfl
        · rw [e4] at hq1
          dsimp only at hq1 ⊢
          subst hq1
          cases b
          · show Rd.bind _ _ _ = Rd.bind _ _ _
            unfold Rd.bind
            rw [ih f' s2 (by rw [e1]; omega) (by rw [e1]; omega)]
          · rfl

/-- A loop with the bound `loopFuel`. -/
theorem Shifts.loop {r : Rd α} {stop : α → Rd Bool} (h : Shifts r) (hs : ∀ x, Shifts (stop x)) (hr : Forward r)
    (hq : ∀ x s, (stop x s).2 = s) : Shifts (loopFuel >>= fun fuel => Dmr.repeatUntil fuel r stop) := by
  intro s pre
  show Dmr.repeatUntil _ r stop (s.shift pre) = ((Dmr.repeatUntil _ r stop s).1, (Dmr.repeatUntil _ r stop s).2.shift pre)
  have e : (s.shift pre).buf.length = pre.length + s.buf.length := List.length_append
  have e' : (s.shift pre).pos = pre.length + s.pos := rfl
  rw [repeatUntil_fuel hr hq ((s.shift pre).buf.length + 2) (s.buf.length + 2) (s.shift pre) (by omega) (by omega)]
  exact Shifts.repeatUntil h hs _ s pre

theorem Forward.readBytes (n : Nat) (hn : 0 < n) : Forward (Dmr.readBytes n) := by
  intro s a s1 e
  unfold Dmr.readBytes at e
  change Rd.bind Dmr.alignToByte (fun _ => readBytesNotAligned n) s = _ at e
  unfold Rd.bind Dmr.alignToByte readBytesNotAligned at e
  dsimp only at e
  split at e
  · next h =>
    cases e
    rw [List.length_take, List.length_drop] at h
    refine ⟨rfl, ?_, ?_⟩ <;> simp only [List.length_take, List.length_drop] <;> omega
  · cases e

theorem Forward.map {r : Rd α} (h : Forward r) (f : α → β) : Forward (r >>= fun x => (Pure.pure (f x) : Rd β)) := by
  intro s a s1 e
  change Rd.bind r _ s = _ at e
  unfold Rd.bind at e
  rcases e1 : r s with ⟨_ | x, s2⟩
  · rw [e1] at e; cases e
  · rw [e1] at e; cases e; exact h s x _ e1

theorem Forward.readU1 : Forward Dmr.readU1 := Forward.map (Forward.readBytes 1 (by omega)) _

end Dmr
