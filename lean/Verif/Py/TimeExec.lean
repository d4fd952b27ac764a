import Verif.Py.TimeCost
/-
The bound for statements.
-/

set_option autoImplicit false

namespace Dmr.Py.Time

variable {α β : Type}

/-! ### Loops: every turn reads at least one byte -/

theorem at_ok {c : Cost} {σ : State} {t : Nat} {a : α} {τ : State} (h : At c σ (t, .ok a τ)) : left τ + c.k ≤ left σ ∧ t + c.b * left τ ≤ c.a + c.b * left σ := h
theorem at_raise {c : Cost} {σ : State} {t : Nat} {e : PyErr} {τ : State} (h : At c σ (t, (.raise e τ : Out α))) : t ≤ c.a + c.b * left σ := h

theorem turn {a b l l' t : Nat} (h1 : l' + 1 ≤ l) (h2 : t + b * l' ≤ a + b * l) : t + (b + a) * l' ≤ (b + a) * l := by
  rw [Nat.add_mul, Nat.add_mul]
  have : a * (l' + 1) ≤ a * l := Nat.mul_le_mul_left _ h1
  rw [Nat.mul_add] at this
  omega

/-- A turn that reads something pays for itself. -/
theorem at_turn {c d : Cost} (hk : 1 ≤ c.k) (hd : ⟨c.a, c.b + c.a, 0⟩ = d) {m : T α} {f : α → T β} {σ : State} (hm : At c σ (m.run σ))
    (hf : ∀ t a τ, m.run σ = (t, .ok a τ) → At d τ ((f a).run τ)) : At d σ ((m >>= f).run σ) := by
  subst hd
  rw [run_bind]
  rcases hr : m.run σ with ⟨t, ⟨a, τ⟩ | ⟨e, τ⟩⟩
  · rw [hr] at hm
    have h2 := hf t a τ hr
    obtain ⟨h1, h1'⟩ := at_ok hm
    have h3 := turn (by omega) h1'
    dsimp only
    rcases hy : (f a).run τ with ⟨u, ⟨b, υ⟩ | ⟨e, υ⟩⟩
    · rw [hy] at h2
      obtain ⟨h2, h2'⟩ := at_ok h2
      dsimp only at h2 h2'
      show left υ + 0 ≤ left σ ∧ t + u + (c.b + c.a) * left υ ≤ c.a + (c.b + c.a) * left σ
      omega
    · rw [hy] at h2
      have h2 := at_raise h2
      dsimp only at h2
      show t + u ≤ c.a + (c.b + c.a) * left σ
      omega
  · rw [hr] at hm
    have h := at_raise hm
    show t ≤ c.a + (c.b + c.a) * left σ
    rw [Nat.add_mul]
    omega

theorem at_pure {c : Cost} (hk : c.k = 0) (a : α) (σ : State) : At c σ ((pure a : T α).run σ) := (within_pure a).mono (nothing_le hk) σ

theorem within_forLoop {c : Cost} (hk : 1 ≤ c.k) {body : Env → T Flow} (hb : ∀ env, Within c (body env)) (x : String) :
    ∀ (l : List Val) (env : Env), Within ⟨c.a, c.b + c.a, 0⟩ (forLoop body x l env)
  | [], env => by rw [forLoop]; exact fun σ => at_pure rfl _ σ
  | v :: l, env => by
    rw [forLoop]
    intro σ
    refine at_turn hk rfl (hb _ σ) fun t f τ _ => ?_
    cases f with
    | next env => exact within_forLoop hk hb x l env τ
    | brk env => exact at_pure rfl _ _
    | ret v => exact at_pure rfl _ _

/-- What a `while` takes, whose condition and body take that. -/
def around (ct cb : Cost) : Cost := ⟨ct.a + cb.a, max ct.b cb.b + (ct.a + cb.a), 0⟩

theorem within_whileLoop {ct cb : Cost} (hk : 1 ≤ cb.k) {t : Env → T Bool} {body : Env → T Flow} (ht : ∀ env, Within ct (t env)) (hb : ∀ env, Within cb (body env)) :
    ∀ (n : Nat) (env : Env), Within (around ct cb) (whileLoop t body n env) := by
  have htl : ct.le (around ct cb) := by
    refine ⟨Nat.le_add_right _ _, ?_, Nat.zero_le _⟩
    show ct.b ≤ max ct.b cb.b + (ct.a + cb.a)
    omega
  -- a turn: the condition and the body
  have key : ∀ (env : Env) (σ : State) (go : Flow → T Flow), (∀ f τ, At (around ct cb) τ ((go f).run τ)) →
      At (around ct cb) σ ((do if ← t env then (do go (← body env)) else return .next env : T Flow).run σ) := by
    intro env σ go hgo
    rw [run_bind]
    have h1 := ht env σ
    rcases hr : (t env).run σ with ⟨u, ⟨a, τ⟩ | ⟨e, τ⟩⟩
    · rw [hr] at h1
      cases a with
      | false =>
        have := h1.mono htl
        dsimp only
        rw [if_neg (by decide)]
        exact this
      | true =>
        dsimp only
        rw [if_pos rfl]
        have h := at_turn (c := ct.seq cb) (d := around ct cb) (m := t env >>= fun _ => body env) (f := go) (σ := σ) (by show 1 ≤ ct.k + cb.k; omega) rfl
          (at_bind (by rw [hr]; exact h1) fun _ a τ _ => hb env τ) (fun _ f τ _ => hgo f τ)
        rw [run_bind, run_bind, hr] at h
        dsimp only at h ⊢
        rw [run_bind]
        rcases hy : (body env).run τ with ⟨w, ⟨b, υ⟩ | ⟨e, υ⟩⟩
        · rw [hy] at h
          dsimp only at h ⊢
          rw [Nat.add_assoc] at h
          exact h
        · rw [hy] at h
          exact h
    · rw [hr] at h1
      exact at_raise (h1.mono htl)
  intro n
  induction n with
  | zero =>
    intro env σ
    rw [whileLoop]
    rw [run_bind]
    have h1 := ht env σ
    rcases hr : (t env).run σ with ⟨u, ⟨a, τ⟩ | ⟨e, τ⟩⟩
    · rw [hr] at h1
      cases a with
      | false => dsimp only; rw [if_neg (by decide)]; exact h1.mono htl
      | true =>
        dsimp only
        rw [if_pos rfl]
        have h := (h1.mono htl)
        obtain ⟨h2, h3⟩ := at_ok h
        show u + 0 ≤ _
        omega
    · rw [hr] at h1
      exact at_raise (h1.mono htl)
  | succ n ih =>
    intro env σ
    rw [whileLoop]
    refine key env σ _ fun f τ => ?_
    cases f with
    | next env => exact ih env τ
    | brk env => exact at_pure rfl _ _
    | ret v => exact at_pure rfl _ _

/-! ### Statements after which the next one follows -/

mutual
/-- The statement neither returns nor breaks. -/
def straight : Stmt → Bool
  | .assign _ _ | .setattr _ _ _ | .expr _ | .pass_ | .raise_ _ => true
  | .if_ _ a b => straights a && straights b
  | _ => false
/-- None of them. -/
def straights : List Stmt → Bool
  | [] => true
  | st :: l => straight st && straights l
end

/-- If it ends, with such a result. -/
def Gives (Q : α → Prop) (m : T α) : Prop := ∀ σ t a τ, m.run σ = (t, .ok a τ) → Q a

theorem gives_pure {Q : α → Prop} {a : α} (h : Q a) : Gives Q (pure a) := fun σ t b τ e => by cases e; exact h
theorem gives_raise {Q : α → Prop} (e : PyErr) : Gives Q (free (raise e) : T α) := fun σ t b τ h => by cases h
theorem gives_bind {Q : β → Prop} {m : T α} {f : α → T β} (h : ∀ a, Gives Q (f a)) : Gives Q (m >>= f) := by
  intro σ t b τ e
  rw [run_bind] at e
  rcases hr : m.run σ with ⟨u, ⟨a, υ⟩ | ⟨e', υ⟩⟩
  · rw [hr] at e
    dsimp only at e
    rcases hy : (f a).run υ with ⟨w, o⟩
    rw [hy] at e
    cases e
    exact h a υ w b τ hy
  · rw [hr] at e; cases e
theorem gives_bind' {P : α → Prop} {Q : β → Prop} {m : T α} {f : α → T β} (hm : Gives P m) (h : ∀ a, P a → Gives Q (f a)) : Gives Q (m >>= f) := by
  intro σ t b τ e
  rw [run_bind] at e
  rcases hr : m.run σ with ⟨u, ⟨a, υ⟩ | ⟨e', υ⟩⟩
  · rw [hr] at e
    dsimp only at e
    rcases hy : (f a).run υ with ⟨w, o⟩
    rw [hy] at e
    cases e
    exact h a (hm σ u a υ hr) υ w b τ hy
  · rw [hr] at e; cases e

/-- The next statement follows. -/
def IsNext (f : Flow) : Prop := ∃ env, f = .next env

mutual
theorem straight_next (P : Program) (c : Calls) (st : Stmt) (h : straight st = true) (env : Env) : Gives IsNext (exec P c st env) := by
  match st with
  | .assign x e => rw [exec]; exact gives_bind fun _ => gives_bind fun _ => gives_pure ⟨_, rfl⟩
  | .setattr o x e =>
    rw [exec]
    refine gives_bind fun _ => gives_bind fun _ => gives_bind fun v => ?_
    split
    · exact gives_bind fun _ => gives_pure ⟨_, rfl⟩
    · exact gives_raise _
  | .expr e =>
    rw [exec.eq_def]
    split
    all_goals first | (rename_i heq; cases heq; done) | (rename_i heq _; cases heq; done) | skip
    · refine gives_bind fun _ => gives_bind fun v => ?_
      split
      · refine gives_bind fun _ => ?_
        split
        · refine gives_bind fun _ => gives_bind fun _ => ?_
          split
          · exact gives_bind fun _ => gives_pure ⟨_, rfl⟩
          · exact gives_raise _
        · exact gives_raise _
      · exact gives_raise _
    · exact gives_bind fun _ => gives_bind fun _ => gives_pure ⟨_, rfl⟩
  | .if_ t a b =>
    rw [straight, Bool.and_eq_true] at h
    have ha := straights_next P c a h.1 env
    have hb := straights_next P c b h.2 env
    rw [exec]
    refine gives_bind fun _ => gives_bind fun v => ?_
    split
    · exact ha
    · exact hb
  | .for_ _ _ _ | .while_ _ _ | .break_ | .return_ _ => cases h
  | .pass_ => rw [exec]; exact gives_bind fun _ => gives_pure ⟨_, rfl⟩
  | .raise_ e =>
    rw [exec.eq_def]
    split
    all_goals first | (rename_i heq; cases heq; done) | (rename_i heq _; cases heq; done) | skip
    · exact gives_bind fun _ => gives_bind fun _ => gives_bind fun _ => gives_bind fun _ => gives_raise _
    · exact gives_bind fun _ => gives_raise _
theorem straights_next (P : Program) (c : Calls) (l : List Stmt) (h : straights l = true) (env : Env) : Gives IsNext (execs P c l env) := by
  match l with
  | [] => rw [execs]; exact gives_pure ⟨_, rfl⟩
  | st :: rest =>
    rw [straights, Bool.and_eq_true] at h
    have h1 := straight_next P c st h.1 env
    have h2 := straights_next P c rest h.2
    rw [execs]
    refine gives_bind' h1 fun f hf => ?_
    obtain ⟨env', rfl⟩ := hf
    exact h2 env'
end

end Dmr.Py.Time
