import Verif.Layout
/-
Which exceptions a decoder can raise: `Errs E x` says that if `x` is an exception, it is of a kind listed in `E`.
-/

namespace Dmr

/-- The Python exception classes (and `Loop`: the decoder would never return). -/
inductive ErrKind where
  | EOFError
  | ValidationNotEqualError
  | UnicodeDecodeError
  | ValueError
  | AttributeError
  | IndexError
  | OverflowError
  | Loop
  deriving DecidableEq, Repr

/-- The class of an exception. -/
def PyErr.kind : PyErr → ErrKind
  | .eof => .EOFError
  | .validation _ => .ValidationNotEqualError
  | .unicode => .UnicodeDecodeError
  | .value => .ValueError
  | .attribute => .AttributeError
  | .index => .IndexError
  | .overflow => .OverflowError
  | .diverge => .Loop

/-- Every exception is of a kind in `E`. -/
def Errs (E : List ErrKind) (x : Except PyErr γ) : Prop := ∀ e, x = .error e → e.kind ∈ E

variable {E : List ErrKind}

theorem Errs.ok (a : γ) : Errs E (.ok a : Except PyErr γ) := by intro e h; cases h
theorem Errs.error {e : PyErr} (h : e.kind ∈ E) : Errs E (.error e : Except PyErr γ) := by intro e' h'; cases h'; exact h
theorem Errs.mono {E' : List ErrKind} {x : Except PyErr γ} (h : Errs E' x) (hs : E' ⊆ E) : Errs E x :=
  fun e he => hs (h e he)
theorem Errs.ite {c : Prop} [Decidable c] {x y : Except PyErr γ} (hx : Errs E x) (hy : Errs E y) :
    Errs E (if c then x else y) := by
  split
  · exact hx
  · exact hy
theorem Errs.next {b : Bytes} {x : Parsed α} {k : α → Nat → Except PyErr γ} (he : .EOFError ∈ E) (hx : Errs E x)
    (h : ∀ a e, e ≤ b.length → Errs E (k a e)) : Errs E (next b x k) := by
  unfold Dmr.next
  rcases x with e | ⟨a, e⟩
  · exact Errs.error (hx e rfl)
  · simp only
    split
    · exact h a e ‹_›
    · exact Errs.error he
theorem Errs.decoded {t : Option PyStr} {k : PyStr → Except PyErr γ} (he : .UnicodeDecodeError ∈ E) (h : ∀ t, Errs E (k t)) :
    Errs E (decoded t k) := by
  cases t
  · exact Errs.error he
  · exact h _
theorem Errs.upTo {b : Bytes} {e : Nat} {x : Except PyErr γ} (he : .EOFError ∈ E) (h : Errs E x) : Errs E (upTo b e x) :=
  Errs.ite h (Errs.error he)
theorem Errs.textAt {b : Bytes} {c : Bytes → Option PyStr} {o n : Nat} {k : PyStr → Except PyErr γ}
    (he : .EOFError ∈ E) (hu : .UnicodeDecodeError ∈ E) (h : ∀ t, Errs E (k t)) : Errs E (textAt c b o n k) :=
  Errs.ite (Errs.decoded hu h) (Errs.error he)
theorem Errs.sizedAt {b : Bytes} {o : Nat} {n : Int} {k : Bytes → Except PyErr γ}
    (he : .EOFError ∈ E) (hv : .ValueError ∈ E) (h : ∀ t, Errs E (k t)) : Errs E (sizedAt b o n k) :=
  Errs.ite (Errs.error hv) (Errs.ite (h _) (Errs.error he))
theorem Errs.fixedAt {b : Bytes} {o : Nat} {v : Bytes} {path : String} {x : Except PyErr γ}
    (he : .EOFError ∈ E) (hv : .ValidationNotEqualError ∈ E) (h : Errs E x) : Errs E (fixedAt b o v path x) :=
  Errs.ite (Errs.ite h (Errs.error hv)) (Errs.error he)
theorem Errs.as {x : Parsed α} (g : α → β) (h : Errs E x) : Errs E (x.as g) := by
  rcases x with e | ⟨a, e⟩
  · exact Errs.error (h e rfl)
  · exact Errs.ok _
theorem Errs.whole {b : Bytes} {n q : Nat} {f : Bytes → Nat → α} (he : .EOFError ∈ E) : Errs E (whole n f b q) :=
  Errs.ite (Errs.ok _) (Errs.error he)
theorem Errs.optPart {c : Prop} [Decidable c] {x : Parsed α} {o : Nat} (h : Errs E x) : Errs E (optPart c x o) :=
  Errs.ite (h.as some) (Errs.ok _)

/-- A loop of parts that advance ends, so it raises nothing but what its parts raise. -/
theorem Errs.chain {f : Bytes → Nat → Parsed α} {st : α → Nat → Bool} {b : Bytes} (ha : Advances f)
    (hr : ∀ q, q ≤ b.length → InRange b (f b q)) (h : ∀ q, Errs E (f b q)) (q : Nat) (hq : q ≤ b.length) : Errs E (chain f st b q) := by
  induction n : b.length - q using Nat.strong_induction_on generalizing q with
  | _ n ih =>
    rw [Dmr.chain]
    rcases hf : f b q with e | ⟨a, e⟩
    · exact Errs.error (h q e hf)
    · have h1 : q < e := ha b q a e hf
      have h2 := hr q hq a e hf
      simp only
      split
      · exact Errs.ok _
      · rw [dif_pos ⟨h1, h2⟩]
        have := ih (b.length - e) (by omega) e h2 rfl
        rcases hc : Dmr.chain f st b e with x | ⟨as, e'⟩
        · exact Errs.error (this x hc)
        · exact Errs.ok _

/-- The same for a loop to the end of the data. -/
theorem Errs.toEnd {f : Bytes → Nat → Parsed α} {b : Bytes} (ha : Advances f)
    (hr : ∀ q, q ≤ b.length → InRange b (f b q)) (h : ∀ q, Errs E (f b q)) (q : Nat) (hq : q ≤ b.length) : Errs E (toEnd f b q) := by
  induction n : b.length - q using Nat.strong_induction_on generalizing q with
  | _ n ih =>
    rw [Dmr.toEnd]
    split
    · exact Errs.ok _
    rcases hf : f b q with e | ⟨a, e⟩
    · exact Errs.error (h q e hf)
    · have h1 : q < e := ha b q a e hf
      have h2 := hr q hq a e hf
      simp only
      rw [dif_pos ⟨h1, h2⟩]
      have := ih (b.length - e) (by omega) e h2 rfl
      rcases hc : Dmr.toEnd f b e with x | ⟨as, e'⟩
      · exact Errs.error (this x hc)
      · exact Errs.ok _

/-- Discharges `Errs E (X.spec b q)` once the specification is unfolded; facts are given for the parts. -/
macro "only_errs" "[" ts:term,* "]" : tactic => do
  let alts ← ts.getElems.mapM fun (t : Lean.TSyntax `term) => `(tacticSeq| with_reducible exact Errs.mono $t (by decide))
  `(tactic| repeat' (first
      | with_reducible exact Errs.ok _
      | with_reducible exact Errs.error (by decide)
      $[| $alts]*
      | with_reducible exact Errs.whole (by decide)
      | with_reducible refine Errs.optPart ?_
      | with_reducible refine Errs.upTo (by decide) ?_
      | (with_reducible refine Errs.next (by decide) ?_ ?_; rotate_left; intro _ _ _; rotate_right)
      | (with_reducible refine Errs.decoded (by decide) ?_; intro _)
      | (with_reducible refine Errs.textAt (by decide) (by decide) ?_; intro _)
      | (with_reducible refine Errs.sizedAt (by decide) (by decide) ?_; intro _)
      | with_reducible refine Errs.fixedAt (by decide) (by decide) ?_
      | with_reducible refine Errs.as _ ?_
      | with_reducible refine Errs.ite ?_ ?_))

end Dmr
