import Verif.Layout
/-
A message never ends before it starts: `AtLeast m x` says that the parse result `x` ends at offset `m` or later.
-/

namespace Dmr

def AtLeast (m : Nat) (x : Parsed α) : Prop := ∀ a e, x = .ok (a, e) → m ≤ e

theorem AtLeast.error (m : Nat) (e : PyErr) : AtLeast m (.error e : Parsed α) := by intro a e h; cases h
theorem AtLeast.ok {m : Nat} {a : α} {e : Nat} (h : m ≤ e) : AtLeast m (.ok (a, e) : Parsed α) := by
  intro a' e' h'; cases h'; exact h
theorem AtLeast.mono {m n : Nat} {x : Parsed α} (h : AtLeast n x) (hmn : m ≤ n) : AtLeast m x :=
  fun a e he => Nat.le_trans hmn (h a e he)
theorem AtLeast.ite {m : Nat} {c : Prop} [Decidable c] {x y : Parsed α} (hx : AtLeast m x) (hy : AtLeast m y) :
    AtLeast m (if c then x else y) := by
  split
  · exact hx
  · exact hy
theorem AtLeast.next {m n : Nat} {b : Bytes} {x : Parsed α} {k : α → Nat → Parsed β} (hx : AtLeast n x)
    (h : ∀ a e, n ≤ e → AtLeast m (k a e)) : AtLeast m (next b x k) := by
  unfold Dmr.next
  rcases x with _ | ⟨a, e⟩
  · exact AtLeast.error _ _
  · exact AtLeast.ite (h a e (hx a e rfl)) (AtLeast.error _ _)
theorem AtLeast.decoded {m : Nat} {t : Option PyStr} {k : PyStr → Parsed β} (h : ∀ t, AtLeast m (k t)) :
    AtLeast m (decoded t k) := by
  cases t
  · exact AtLeast.error _ _
  · exact h _
theorem AtLeast.upTo {m : Nat} {b : Bytes} {e : Nat} {x : Parsed α} (h : AtLeast m x) : AtLeast m (upTo b e x) :=
  AtLeast.ite h (AtLeast.error _ _)
theorem AtLeast.textAt {m : Nat} {b : Bytes} {c : Bytes → Option PyStr} {o n : Nat} {k : PyStr → Parsed β}
    (h : ∀ t, AtLeast m (k t)) : AtLeast m (textAt c b o n k) :=
  AtLeast.ite (AtLeast.decoded h) (AtLeast.error _ _)
theorem AtLeast.sizedAt {m : Nat} {b : Bytes} {o : Nat} {n : Int} {k : Bytes → Parsed β}
    (h : ∀ t, AtLeast m (k t)) : AtLeast m (sizedAt b o n k) :=
  AtLeast.ite (AtLeast.error _ _) (AtLeast.ite (h _) (AtLeast.error _ _))
theorem AtLeast.fixedAt {m : Nat} {b : Bytes} {o : Nat} {v : Bytes} {path : String} {x : Parsed β}
    (h : AtLeast m x) : AtLeast m (fixedAt b o v path x) :=
  AtLeast.ite (AtLeast.ite h (AtLeast.error _ _)) (AtLeast.error _ _)
theorem AtLeast.as {m : Nat} {x : Parsed α} (g : α → β) (h : AtLeast m x) : AtLeast m (x.as g) := by
  rcases x with _ | ⟨a, e⟩
  · exact AtLeast.error _ _
  · exact AtLeast.ok (h a e rfl)
theorem AtLeast.whole {m : Nat} {b : Bytes} {n q : Nat} {f : Bytes → Nat → α} (h : m ≤ q + n) :
    AtLeast m (whole n f b q) := AtLeast.ite (AtLeast.ok h) (AtLeast.error _ _)
theorem AtLeast.optPart {m : Nat} {c : Prop} [Decidable c] {x : Parsed α} {o : Nat} (ho : m ≤ o)
    (h : AtLeast m x) : AtLeast m (optPart c x o) := AtLeast.ite (h.as some) (AtLeast.ok ho)

/-- Discharges `AtLeast m (X.spec b q)` once the specification is unfolded; `known` facts are given for parts. -/
macro "at_least" "[" ts:term,* "]" : tactic => do
  let alts ← ts.getElems.mapM fun (t : Lean.TSyntax `term) => `(tacticSeq| exact AtLeast.mono $t (by omega))
  let nexts ← ts.getElems.mapM fun (t : Lean.TSyntax `term) => `(tacticSeq| (refine AtLeast.next $t ?_; intro _ _ _))
  `(tactic| repeat' (first
      | exact AtLeast.error _ _
      | (refine AtLeast.ok ?_; omega)
      $[| $alts]*
      $[| $nexts]*
      | exact AtLeast.whole (by omega)
      | (refine AtLeast.ite ?_ ?_)
      | (refine AtLeast.decoded ?_; intro _)
      | (refine AtLeast.upTo ?_)
      | (refine AtLeast.textAt ?_; intro _)
      | (refine AtLeast.sizedAt ?_; intro _)
      | (refine AtLeast.fixedAt ?_)
      | refine AtLeast.as _ ?_))

end Dmr
