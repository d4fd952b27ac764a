import Verif.Runtime
/-
`Local G r`: a successful run of the reader `r` consumes some bytes from the current position on and its result is
determined by those bytes (and by the bit buffer): on any other stream (in the relation `G` to this one) that continues with the
same bytes it gives the same result and consumes the same number of bytes, whatever comes after them and wherever they
lie; on a stream that ends within them it raises EOFError. All readers that do not look at the position, the size or
the end of the stream are of this kind. `G` restricts the other streams (it is `fun _ _ => True` for the readers that
do not seek to an absolute position).
-/

namespace Dmr

/-- The unread bytes. -/
def Stream.rest (s : Stream) : Bytes := s.buf.drop s.pos

/-- What the head of this file says, for the run of `r` on `s` that gave `a` and left the stream in the state `s1`. -/
def LocalAt (G : Bytes → Bytes → Prop) (r : Rd α) (s : Stream) (a : α) (s1 : Stream) : Prop :=
  ∃ c : Bytes,
    s1.buf = s.buf ∧ s1.pos = s.pos + c.length ∧ s.rest = c ++ s1.rest ∧
    ∀ t : Stream, G s.buf t.buf → t.bits = s.bits → t.bitsLeft = s.bitsLeft →
      (∀ r', t.rest = c ++ r' →
        r t = (.ok a, { buf := t.buf, pos := t.pos + c.length, bits := s1.bits, bitsLeft := s1.bitsLeft })) ∧
      (∀ x y, c = t.rest ++ x :: y → (r t).1 = .error .eof)

/-- See the head of this file. -/
def Local (G : Bytes → Bytes → Prop) (r : Rd α) : Prop := ∀ s a s1, r s = (.ok a, s1) → LocalAt G r s a s1

variable {G : Bytes → Bytes → Prop}

theorem rest_move (t : Stream) (c r' : Bytes) (h : t.rest = c ++ r') (x y : Nat) :
    ({ buf := t.buf, pos := t.pos + c.length, bits := x, bitsLeft := y } : Stream).rest = r' := by
  unfold Stream.rest at *
  simp only
  rw [← List.drop_drop, h, List.drop_left]

theorem Local.pure (a : α) : Local G (Rd.pure a) := by
  intro s a' s1 h
  cases h
  refine ⟨[], rfl, rfl, rfl, fun t _ hb hl => ⟨fun r' _ => ?_, fun x y h => ?_⟩⟩
  · rw [← hb, ← hl]; rfl
  · simp at h

theorem Local.pure' (a : α) : Local G (Pure.pure a : Rd α) := Local.pure a

theorem Local.throw (e : PyErr) : Local G (Rd.throw e : Rd α) := by
  intro s a' s1 h
  cases h

theorem LocalAt.bind {r : Rd α} {k : α → Rd β} {s : Stream} {b : β} {s2 : Stream} (hr : Local G r)
    (hk : ∀ a s1, r s = (.ok a, s1) → k a s1 = (.ok b, s2) → LocalAt G (k a) s1 b s2)
    (h : (r >>= k) s = (.ok b, s2)) : LocalAt G (r >>= k) s b s2 := by
  have h' : Rd.bind r k s = (.ok b, s2) := h
  unfold Rd.bind at h'
  rcases h1 : r s with ⟨_ | a, s1⟩
  · rw [h1] at h'; cases h'
  rw [h1] at h'
  simp only at h'
  obtain ⟨c1, b1, p1, e1, f1⟩ := hr s a s1 h1
  obtain ⟨c2, b2, p2, e2, f2⟩ := hk a s1 h1 h'
  refine ⟨c1 ++ c2, b2.trans b1, by rw [p2, p1, List.length_append]; omega, by rw [e1, e2, List.append_assoc], ?_⟩
  intro t hG hb hl
  obtain ⟨g1, g2⟩ := f1 t hG hb hl
  constructor
  · intro r' hr'
    rw [List.append_assoc] at hr'
    have ht := g1 _ hr'
    have hm := rest_move t c1 (c2 ++ r') hr' s1.bits s1.bitsLeft
    obtain ⟨k1, -⟩ := f2 { buf := t.buf, pos := t.pos + c1.length, bits := s1.bits, bitsLeft := s1.bitsLeft }
      (by rw [b1]; exact hG) rfl rfl
    have := k1 r' hm
    show Rd.bind r k t = _
    unfold Rd.bind
    rw [ht]
    simp only
    rw [this, List.length_append, Nat.add_assoc]
  · intro x y hxy
    show (Rd.bind r k t).1 = _
    unfold Rd.bind
    rcases List.append_eq_append_iff.mp hxy with ⟨w, hw1, hw2⟩ | ⟨w, hw1, hw2⟩
    · -- the truncated data hold all of `c1`
      have ht := g1 w hw1
      have hm := rest_move t c1 w hw1 s1.bits s1.bitsLeft
      obtain ⟨-, k2⟩ := f2 { buf := t.buf, pos := t.pos + c1.length, bits := s1.bits, bitsLeft := s1.bitsLeft }
        (by rw [b1]; exact hG) rfl rfl
      rw [ht]
      simp only
      exact k2 x y (by rw [hm]; exact hw2)
    · rcases w with _ | ⟨w0, ws⟩
      · -- exactly `c1` is there
        have hw1' : t.rest = c1 ++ [] := by rw [hw1]; simp
        have hw2' : c2 = x :: y := by simpa using hw2.symm
        have ht := g1 [] hw1'
        have hm := rest_move t c1 [] hw1' s1.bits s1.bitsLeft
        obtain ⟨-, k2⟩ := f2 { buf := t.buf, pos := t.pos + c1.length, bits := s1.bits, bitsLeft := s1.bitsLeft }
          (by rw [b1]; exact hG) rfl rfl
        rw [ht]
        simp only
        exact k2 x y (by rw [hm, hw2']; rfl)
      · have he := g2 w0 ws hw1
        rcases hx : r t with ⟨e | a', t1⟩
        · rw [hx] at he; cases he; rfl
        · rw [hx] at he; cases he

theorem Local.bind {r : Rd α} {k : α → Rd β} (hr : Local G r) (hk : ∀ a, Local G (k a)) : Local G (r >>= k) :=
  fun _ _ _ h => LocalAt.bind hr (fun a _ _ h2 => hk a _ _ _ h2) h

theorem Local.ite {c : Prop} [Decidable c] {r r' : Rd α} (h : Local G r) (h' : Local G r') : Local G (if c then r else r') := by
  split
  · exact h
  · exact h'

theorem Local.alignToByte : Local G Dmr.alignToByte := by
  intro s a s1 h
  cases h
  refine ⟨[], rfl, rfl, rfl, fun t _ hb hl => ⟨fun r' _ => rfl, fun x y h => ?_⟩⟩
  simp at h

theorem Local.readBytesNotAligned (n : Nat) : Local G (Dmr.readBytesNotAligned n) := by
  intro s a s1 h
  unfold Dmr.readBytesNotAligned at h
  simp only at h
  split at h
  case isFalse => cases h
  rename_i hn
  cases h
  have hlen : (s.rest.take n).length = n := by
    have : (s.rest.take n).length ≤ n := List.length_take_le _ _
    exact Nat.le_antisymm this hn
  refine ⟨s.rest.take n, rfl, rfl, ?_, ?_⟩
  · show s.rest = s.rest.take n ++ List.drop (s.pos + (s.rest.take n).length) s.buf
    rw [hlen, ← List.drop_drop]
    exact (List.take_append_drop n s.rest).symm
  · intro t _ hb hl
    constructor
    · intro r' hr'
      have ht : (t.buf.drop t.pos).take n = s.rest.take n := by
        show t.rest.take n = _
        rw [hr']
        exact List.take_left' hlen
      unfold Dmr.readBytesNotAligned
      simp only
      rw [ht, if_pos (Nat.le_of_eq hlen.symm), ← hb, ← hl]
      rfl
    · intro x y hxy
      have hlt : t.rest.length < n := by
        rw [← hlen, hxy, List.length_append, List.length_cons]; omega
      unfold Dmr.readBytesNotAligned
      simp only
      have hnn : ¬ n ≤ ((t.buf.drop t.pos).take n).length := by
        show ¬ n ≤ (t.rest.take n).length
        rw [List.length_take]; omega
      rw [if_neg hnn]

theorem Local.readBytes (n : Nat) : Local G (Dmr.readBytes n) :=
  Local.bind Local.alignToByte fun _ => Local.readBytesNotAligned n

theorem Local.readBytesInt (n : Int) : Local G (Dmr.readBytesInt n) :=
  Local.bind Local.alignToByte fun _ => Local.ite (Local.throw _) (Local.readBytesNotAligned _)

/-- A reader that only changes the bit buffer, as a function of the bit buffer. -/
theorem Local.ofBits {r : Rd α} (f : Nat → Nat → α × Nat × Nat)
    (h : ∀ s, r s = (.ok (f s.bits s.bitsLeft).1,
      { s with bits := (f s.bits s.bitsLeft).2.1, bitsLeft := (f s.bits s.bitsLeft).2.2 })) : Local G r := by
  intro s a s1 hs
  rw [h] at hs
  cases hs
  refine ⟨[], rfl, rfl, rfl, fun t _ hb hl => ⟨fun r' _ => ?_, fun x y h => ?_⟩⟩
  · rw [h, hb, hl]; rfl
  · simp at h

/-- The bit buffer may be looked at. -/
theorem Local.withBits {k : Nat → Nat → Rd α} (h : ∀ b l, Local G (k b l)) : Local G (fun s => k s.bits s.bitsLeft s) := by
  intro s a s1 hs
  obtain ⟨c, h1, h2, h3, h4⟩ := h s.bits s.bitsLeft s a s1 hs
  refine ⟨c, h1, h2, h3, fun t hG hb hl => ?_⟩
  obtain ⟨g1, g2⟩ := h4 t hG hb hl
  simp only [hb, hl]
  exact ⟨g1, g2⟩

/-- Replace the bit buffer. -/
def setBits (b l : Nat) : Rd Unit := fun s => (.ok (), { s with bits := b, bitsLeft := l })

theorem Local.setBits (b l : Nat) : Local G (Dmr.setBits b l) :=
  Local.ofBits (fun _ _ => ((), b, l)) fun _ => rfl

/-- `readBitsIntBe` in terms of simpler readers, for given contents `b`, `l` of the bit buffer. -/
def bitsBody (n b l : Nat) : Rd Nat :=
  if (n : Int) - (l : Int) > 0 then
    Dmr.setBits b ((-((n : Int) - (l : Int))) % 8).toNat >>= fun _ =>
    readBytesNotAligned ((((n : Int) - (l : Int)) - 1) / 8 + 1).toNat >>= fun chunk =>
    Dmr.setBits (orBytes chunk &&& ((1 <<< ((-((n : Int) - (l : Int))) % 8).toNat) - 1)) ((-((n : Int) - (l : Int))) % 8).toNat >>= fun _ =>
    (Pure.pure ((orBytes chunk >>> ((-((n : Int) - (l : Int))) % 8).toNat) ||| (b <<< ((n : Int) - (l : Int)).toNat)) : Rd Nat)
  else
    Dmr.setBits (b &&& ((1 <<< ((-((n : Int) - (l : Int))) % 8).toNat) - 1)) ((-((n : Int) - (l : Int))) % 8).toNat >>= fun _ =>
    (Pure.pure (b >>> (-((n : Int) - (l : Int))).toNat) : Rd Nat)

theorem readBitsIntBe_eq (n : Nat) : readBitsIntBe n = fun s => bitsBody n s.bits s.bitsLeft s := by
  funext s
  unfold readBitsIntBe bitsBody
  simp only
  split
  · show _ = Rd.bind _ _ s
    unfold Rd.bind Dmr.setBits
    simp only
    show _ = Rd.bind _ _ _
    unfold Rd.bind
    rcases hx : readBytesNotAligned ((((n : Int) - (s.bitsLeft : Int)) - 1) / 8 + 1).toNat
      { s with bitsLeft := ((-((n : Int) - (s.bitsLeft : Int))) % 8).toNat } with ⟨_ | c, s2⟩
    · rfl
    · have : s2.bitsLeft = ((-((n : Int) - (s.bitsLeft : Int))) % 8).toNat := by
        unfold readBytesNotAligned at hx
        simp only at hx
        split at hx <;> cases hx; rfl
      show _ = (Except.ok _, { s2 with bits := _, bitsLeft := _ })
      rw [← this]
  · rfl

theorem Local.readBitsIntBe (n : Nat) : Local G (Dmr.readBitsIntBe n) := by
  rw [readBitsIntBe_eq]
  apply Local.withBits
  intro b l
  unfold bitsBody
  apply Local.ite
  · exact Local.bind (Local.setBits _ _) fun _ => Local.bind (Local.readBytesNotAligned _) fun _ =>
      Local.bind (Local.setBits _ _) fun _ => Local.pure' _
  · exact Local.bind (Local.setBits _ _) fun _ => Local.pure' _

theorem Local.readFlag : Local G Dmr.readFlag := Local.bind (Local.readBitsIntBe 1) fun _ => Local.pure' _
theorem Local.readU1 : Local G Dmr.readU1 := Local.bind (Local.readBytes _) fun _ => Local.pure' _
theorem Local.readU2be : Local G Dmr.readU2be := Local.bind (Local.readBytes _) fun _ => Local.pure' _
theorem Local.readU2le : Local G Dmr.readU2le := Local.bind (Local.readBytes _) fun _ => Local.pure' _
theorem Local.readU4be : Local G Dmr.readU4be := Local.bind (Local.readBytes _) fun _ => Local.pure' _
theorem Local.readU4le : Local G Dmr.readU4le := Local.bind (Local.readBytes _) fun _ => Local.pure' _
theorem Local.readS2be : Local G Dmr.readS2be := Local.bind (Local.readBytes _) fun _ => Local.pure' _

theorem Local.validateEq [DecidableEq α] (v e : α) (p : String) : Local G (Dmr.validateEq v e p) :=
  Local.ite (Local.pure _) (Local.throw _)

theorem Local.optionally {r : Rd α} (c : Bool) (h : Local G r) : Local G (Dmr.optionally c r) :=
  Local.ite (Local.bind h fun _ => Local.pure' _) (Local.pure' _)

theorem Local.repeatN {r : Rd α} (n : Nat) (h : Local G r) : Local G (Dmr.repeatN n r) := by
  induction n with
  | zero => exact Local.pure' _
  | succ n ih => exact Local.bind h fun _ => Local.bind ih fun _ => Local.pure' _

theorem Local.asEnum {E : Type} [PyEnum E] {r : Rd Nat} (h : Local G r) : Local G (Dmr.asEnum E r) :=
  Local.bind h fun _ => Local.pure' _

theorem Local.decodeWith {c : Bytes → Option PyStr} {r : Rd Bytes} (h : Local G r) : Local G (Dmr.decodeWith c r) := by
  refine Local.bind h fun b => ?_
  show Local G (match c b with | some s => _ | none => _)
  split
  · exact Local.pure' _
  · exact Local.throw _

/-- Prove `Local` for the body of a decoder, given the facts about its parts. -/
macro "local_reader" "[" ls:term,* "]" : tactic => do
  let alts ← ls.getElems.mapM fun t => `(tacticSeq| with_reducible exact $t)
  `(tactic| repeat' (first
    | assumption
    | with_reducible exact Local.pure' _ | with_reducible exact Local.throw _ | with_reducible exact Local.alignToByte | with_reducible exact Local.readBytes _ | with_reducible exact Local.readBytesInt _
    | with_reducible exact Local.readBitsIntBe _ | with_reducible exact Local.readFlag | with_reducible exact Local.readU1 | with_reducible exact Local.readU2be | with_reducible exact Local.readU2le
    | with_reducible exact Local.readU4be | with_reducible exact Local.readU4le | with_reducible exact Local.readS2be | with_reducible exact Local.validateEq _ _ _
    $[| $alts]*
    | with_reducible apply Local.optionally | with_reducible apply Local.repeatN | with_reducible apply Local.asEnum
    | with_reducible apply Local.decodeWith | with_reducible apply Local.ite
    | (with_reducible apply Local.bind; rotate_left; intro _; rotate_right)
    | split))

end Dmr
