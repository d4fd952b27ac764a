import Verif.Py.TimePeek
/-
The bound for statements, functions and calls.
-/

set_option autoImplicit false

namespace Dmr.Py.Time

variable {α β : Type}

/-- The steps of the four statements of Verif/Py/TimePeek, if the statements begin with them. -/
def peek : List Stmt → Option Nat
  | .assign p (.call (.attr (.attr (.name s1) i1) m1) []) :: .expr (.call (.attr (.attr (.name s2) i2) m2) [e]) :: .setattr (.name s3) x e' ::
      .expr (.call (.attr (.attr (.name s4) i4) m4) [.name q]) :: _ =>
    if p = "_pos" ∧ s1 = "self" ∧ i1 = "_io" ∧ m1 = "pos" ∧ s2 = "self" ∧ i2 = "_io" ∧ m2 = "seek" ∧ s3 = "self" ∧ x ≠ "_io" ∧
        s4 = "self" ∧ i4 = "_io" ∧ m4 = "seek" ∧ q = "_pos" then
      match quiet e, quiet e' with
      | some m, some n => some (15 + (m + n))
      | _, _ => none
    else none
  | _ => none

theorem peek_some {l : List Stmt} {t : Nat} (h : peek l = some t) :
    ∃ e x e' m n, x ≠ "_io" ∧ quiet e = some m ∧ quiet e' = some n ∧ t = 15 + (m + n) ∧ l = peekOf e x e' ++ l.drop 4 := by
  unfold peek at h
  split at h
  · split at h
    · rename_i hs
      obtain ⟨rfl, rfl, rfl, rfl, rfl, rfl, rfl, rfl, hx, rfl, rfl, rfl, rfl⟩ := hs
      split at h
      · rename_i m n h1 h2
        cases h
        exact ⟨_, _, _, m, n, hx, h1, h2, rfl, rfl⟩
      · cases h
    · cases h
  · cases h

/-- What statements take, and what remains of them after the first, the second and the third. -/
structure Tail where
  c0 : Option Cost
  c1 : Option Cost
  c2 : Option Cost
  c3 : Option Cost

/-- `self.x.append(e)`, or an expression. -/
def xcost (K : Known) : Expr → Option Cost
  | .call (.attr (.attr o x) m) [e] => if m = "append" then tk (sq (ecost K o) (ecost K e)) else tk (ecost K (.call (.attr (.attr o x) m) [e]))
  | e => tk (ecost K e)

/-- A loop over something that takes `ci`, whose body takes `cb`. -/
def overCost : Option Cost → Option Cost → Option Cost
  | some ci, some cb => if 1 ≤ cb.k then some (step.seq (ci.seq ⟨cb.a, cb.b + cb.a, 0⟩)) else none
  | _, _ => none

/-- A loop whose condition takes `ct`, and whose body takes `cb`. -/
def whileCost : Option Cost → Option Cost → Option Cost
  | some ct, some cb => if 1 ≤ cb.k then some (step.seq (around ct cb)) else none
  | _, _ => none

mutual
/-- What a statement takes. -/
def scost (K : Known) : Stmt → Option Cost
  | .assign _ e => tk (ecost K e)
  | .setattr o _ e => tk (sq (ecost K e) (ecost K o))
  | .expr e => xcost K e
  | .if_ t a b => tk (sq (ecost K t) (al (scosts K a).c0 (scosts K b).c0))
  | .for_ _ it body => overCost (ecost K it) (scosts K body).c0
  | .while_ t body => whileCost (ecost K t) (scosts K body).c0
  | .break_ | .pass_ => some step
  | .raise_ (.call _ args) => tk (ecosts K args)
  | .raise_ _ => some step
  | .return_ e => tk (ecost K e)
/-- What statements take. -/
def scosts (K : Known) : List Stmt → Tail
  | [] => ⟨some nothing, some nothing, some nothing, some nothing⟩
  | st :: rest =>
    match scosts K rest with
    | ⟨d0, d1, d2, d3⟩ =>
      ⟨match peek (st :: rest) with
        | some t => sq (some ⟨t, 0, 0⟩) d3
        | none => sq (scost K st) (if straight st then d0 else opt d0), d0, d1, d2⟩
end

theorem t_assoc {γ : Type} (m : T α) (f : α → T β) (g : β → T γ) : (m >>= f) >>= g = m >>= fun a => f a >>= g := by
  funext σ
  show T.run _ σ = T.run _ σ
  rw [run_bind, run_bind, run_bind]
  rcases hm : m.run σ with ⟨t, ⟨a, τ⟩ | ⟨e, τ⟩⟩
  · dsimp only
    rw [run_bind]
    rcases hf : (f a).run τ with ⟨u, ⟨b, υ⟩ | ⟨e, υ⟩⟩
    · dsimp only
      rw [Nat.add_assoc]
    · rfl
  · rfl

theorem t_pure_bind (a : α) (f : α → T β) : (pure a >>= f) = f a := by
  funext σ
  show T.run _ σ = T.run _ σ
  rw [run_bind, run_pure]
  dsimp only
  rw [Nat.zero_add]

/-- What follows. -/
def follow (P : Program) (c : Calls) (l : List Stmt) : Flow → T Flow
  | .next env => execs P c l env
  | f => pure f

theorem execs_append (P : Program) (c : Calls) (l' : List Stmt) : ∀ (l : List Stmt) (env : Env), execs P c (l ++ l') env = execs P c l env >>= follow P c l'
  | [], env => by rw [List.nil_append, execs, t_pure_bind]; rfl
  | st :: l, env => by
    rw [List.cons_append, execs, execs, t_assoc]
    congr 1
    funext f
    cases f with
    | next env => exact execs_append P c l' l env
    | brk env => rw [t_pure_bind]; rfl
    | ret v => rw [t_pure_bind]; rfl

theorem within_gives {c d : Cost} {m : T α} {f : α → T β} {Q : α → Prop} (hm : Within c m) (hq : Gives Q m) (hf : ∀ a, Q a → Within d (f a)) : Within (c.seq d) (m >>= f) :=
  fun σ => at_bind (hm σ) fun t a τ h => hf a (hq σ t a τ h) τ

/-- The statements take that, and so do those after the first, the second and the third. -/
def Tail.Ok (P : Program) (c : Calls) (T : Tail) (l : List Stmt) : Prop :=
  (∀ d, T.c0 = some d → ∀ env, Within d (execs P c l env)) ∧ (∀ d, T.c1 = some d → ∀ env, Within d (execs P c (l.drop 1) env)) ∧
  (∀ d, T.c2 = some d → ∀ env, Within d (execs P c (l.drop 2) env)) ∧ ∀ d, T.c3 = some d → ∀ env, Within d (execs P c (l.drop 3) env)

mutual
theorem within_exec (P : Program) {K : Known} {c : Calls} (hc : Bounds K c) (st : Stmt) (d : Cost) (hd : scost K st = some d) (env : Env) :
    Within d (exec P c st env) := by
  have he := fun (env : Env) (e : Expr) (d : Cost) => within_eval P hc env e d
  match st with
  | .assign x e =>
    rw [scost] at hd
    obtain ⟨d', hd', rfl⟩ := tk_some hd
    rw [exec]
    exact within_tick (within_done _ (he _ _ _ hd'))
  | .setattr o x e =>
    rw [scost] at hd
    obtain ⟨d', hd', rfl⟩ := tk_some hd
    obtain ⟨c1, c2, h1, h2, rfl⟩ := sq_some hd'
    rw [exec]
    refine within_tick (within_bind (he _ _ _ h1) fun v => ?_)
    have : Within (c2.seq (nothing.seq nothing)) (eval P c env o >>= fun w => match w with
        | .obj r => do
          free (store r x v)
          return Flow.next env
        | _ => free (raise .attribute)) := by
      refine within_bind (he _ _ _ h2) fun w => ?_
      split
      · exact within_bind (within_free (streams_store _ _ _)) fun _ => within_pure _
      · exact within_raise _ _
    exact this.mono (by costs)
  | .expr e =>
    rw [scost] at hd
    rw [exec.eq_def]
    split
    all_goals first | (rename_i heq; cases heq; done) | (rename_i heq _; cases heq; done) | skip
    · rename_i o x e heq
      cases heq
      rw [xcost, if_pos rfl] at hd
      obtain ⟨d', hd', rfl⟩ := tk_some hd
      obtain ⟨c1, c2, h1, h2, rfl⟩ := sq_some hd'
      refine within_tick (within_bind (he _ _ _ h1) fun v => ?_)
      split
      · refine (within_bind (within_free_still (still_fetch _)) (d := c2) fun o => ?_).mono (by costs)
        split
        · refine (within_bind (he _ _ _ h2) (d := nothing.seq (nothing.seq nothing)) fun w => within_bind (within_free_still (still_fetch _)) fun o => ?_).mono (by costs)
          split
          · exact within_bind (within_free (streams_store _ _ _)) fun _ => within_pure _
          · exact within_raise _ _
        · exact within_raise _ _
      · exact within_raise _ _
    · rename_i hno heq
      cases heq
      have hd : tk (ecost K e) = some d := by
        unfold xcost at hd
        split at hd
        · split at hd
          · rename_i hm
            subst hm
            exact absurd rfl (hno _ _ _)
          · exact hd
        · exact hd
      obtain ⟨d', hd', rfl⟩ := tk_some hd
      exact within_tick (within_done _ (he _ _ _ hd'))
  | .if_ t a b =>
    rw [scost] at hd
    obtain ⟨d', hd', rfl⟩ := tk_some hd
    obtain ⟨c1, c2, h1, h2, rfl⟩ := sq_some hd'
    obtain ⟨c3, c4, h3, h4, rfl⟩ := al_some h2
    have ha := (within_execs P hc a).1 _ h3 env
    have hb := (within_execs P hc b).1 _ h4 env
    rw [exec]
    exact within_tick (within_bind (he _ _ _ h1) fun v => within_ite ha hb)
  | .for_ x it body =>
    rw [scost] at hd
    have hb := (within_execs P hc body).1
    unfold overCost at hd
    split at hd
    · rename_i ci cb h1 h2
      split at hd
      · rename_i hk
        cases hd
        rw [exec]
        refine within_tick (within_bind (he _ _ _ h1) fun v => ?_)
        split
        · exact within_forLoop hk (fun env => hb _ h2 env) x _ env
        · exact within_raise _ _
      · cases hd
    · cases hd
  | .while_ t body =>
    rw [scost] at hd
    have hb := (within_execs P hc body).1
    unfold whileCost at hd
    split at hd
    · rename_i ct cb h1 h2
      split at hd
      · rename_i hk
        cases hd
        rw [exec]
        refine within_tick ((within_bind (within_free_still (still_loopBound _)) (d := around ct cb) fun n => ?_).mono (by costs))
        exact within_whileLoop hk (fun env => within_done _ (he env _ _ h1)) (fun env => hb _ h2 env) n env
      · cases hd
    · cases hd
  | .break_ => cases hd; rw [exec]; exact within_tick (within_pure _)
  | .pass_ => cases hd; rw [exec]; exact within_tick (within_pure _)
  | .raise_ e =>
    rw [exec.eq_def]
    split
    all_goals first | (rename_i heq; cases heq; done) | (rename_i heq _; cases heq; done) | skip
    · rename_i heq
      cases heq
      rw [scost] at hd
      obtain ⟨d', hd', rfl⟩ := tk_some hd
      rw [ecosts, ecosts, ecosts] at hd'
      obtain ⟨c1, c1', h1, h1', rfl⟩ := sq_some hd'
      obtain ⟨c2, c2', h2, h2', rfl⟩ := sq_some h1'
      obtain ⟨c3, c3', h3, h3', rfl⟩ := sq_some h2'
      exact within_tick (within_bind (he _ _ _ h1) fun _ => within_bind (he _ _ _ h2) fun _ => within_bind (he _ _ _ h3) fun _ => within_raise _ _)
    · have : 1 ≤ d.a := by
        unfold scost at hd
        split at hd
        all_goals first | (rename_i heq; cases heq; done) | (rename_i heq _; cases heq; done) | skip
        · obtain ⟨d', hd', rfl⟩ := tk_some hd
          exact Nat.le_add_right _ _
        · cases hd
          exact Nat.le_refl _
      exact (within_tick (d := ⟨0, 0, d.k⟩) (within_raise _ _)).mono ⟨by show 1 + 0 ≤ d.a; omega, Nat.zero_le _, by show d.k ≤ 0 + d.k; omega⟩
  | .return_ e =>
    rw [scost] at hd
    obtain ⟨d', hd', rfl⟩ := tk_some hd
    rw [exec]
    exact within_tick (within_done _ (he _ _ _ hd'))
theorem within_execs (P : Program) {K : Known} {c : Calls} (hc : Bounds K c) (l : List Stmt) : (scosts K l).Ok P c l := by
  match l with
  | [] =>
    rw [scosts]
    have : ∀ d, some nothing = some d → ∀ env, Within d (execs P c [] env) := fun d h env => by cases h; rw [execs]; exact within_pure _
    exact ⟨this, this, this, this⟩
  | st :: rest =>
    have h1 := within_exec P hc st
    have ih := within_execs P hc rest
    rw [scosts]
    rcases hr : scosts K rest with ⟨d0, d1, d2, d3⟩
    rw [hr] at ih
    obtain ⟨i0, i1, i2, i3⟩ := ih
    refine ⟨fun d hd env => ?_, i0, i1, i2⟩
    dsimp only at hd i0 i1 i2 i3
    cases hp : peek (st :: rest) with
    | some t =>
      rw [hp] at hd
      obtain ⟨c1, c2, hc1, hc2, rfl⟩ := sq_some hd
      cases hc1
      obtain ⟨e, x, e', m, n, hx, he, he', rfl, hl⟩ := peek_some hp
      rw [hl, execs_append]
      refine within_gives (within_peek hc P env hx he he') (straights_next P c (peekOf e x e') rfl env) fun f hf => ?_
      obtain ⟨env', rfl⟩ := hf
      exact i3 _ hc2 env'
    | none =>
      rw [hp] at hd
      obtain ⟨c1, c2, hc1, hc2, rfl⟩ := sq_some hd
      rw [execs]
      split at hc2
      · rename_i hs
        refine within_gives (h1 _ hc1 env) (straight_next P c st hs env) fun f hf => ?_
        obtain ⟨env', rfl⟩ := hf
        exact i0 _ hc2 env'
      · obtain ⟨c3, h3, rfl⟩ := opt_some hc2
        refine within_bind (h1 _ hc1 env) fun f => ?_
        cases f with
        | next env' => exact (i0 _ h3 env').mono (Cost.le_alt_left _ _)
        | brk env' => exact (within_pure _).mono (Cost.le_alt_right _ _)
        | ret v => exact (within_pure _).mono (Cost.le_alt_right _ _)
end

theorem within_call (P : Program) {K : Known} {c : Calls} (hc : Bounds K c) {f : Function} {d : Cost} (hd : (scosts K f.body).c0 = some d) (args : List Val) :
    Within d (call P c f args) := by
  unfold call
  have := within_bind ((within_execs P hc f.body).1 d hd (f.params.zip (args ++ List.replicate (f.params.length - args.length) (.pv .none))))
    (f := fun f => match f with | .ret v => (pure v : T Val) | _ => pure (.pv .none)) (d := nothing) fun f => by split <;> exact within_pure _
  rwa [seq_nothing] at this

/-! ### Constructors -/

/-- The usual `__init__`. -/
def usual : Function := ⟨["self", "_io", "_parent", "_root"],
  [.setattr (.name "self") "_io" (.name "_io"),
   .setattr (.name "self") "_parent" (.name "_parent"),
   .setattr (.name "self") "_root" (.ifExp (.name "_root") (.name "_root") (.name "self")),
   .expr (.call (.attr (.name "self") "_read") [])]⟩

/-- Whether the function is that. -/
def isInit : Function → Bool
  | ⟨ps, [.setattr (.name s1) a1 (.name b1), .setattr (.name s2) a2 (.name b2), .setattr (.name s3) a3 (.ifExp (.name c1) (.name c2) (.name c3)),
      .expr (.call (.attr (.name s4) m) [])]⟩ =>
    decide (ps = ["self", "_io", "_parent", "_root"] ∧ s1 = "self" ∧ a1 = "_io" ∧ b1 = "_io" ∧ s2 = "self" ∧ a2 = "_parent" ∧ b2 = "_parent" ∧
      s3 = "self" ∧ a3 = "_root" ∧ c1 = "_root" ∧ c2 = "_root" ∧ c3 = "self" ∧ s4 = "self" ∧ m = "_read")
  | _ => false

theorem isInit_iff {f : Function} (h : isInit f = true) : f = usual := by
  unfold isInit at h
  split at h
  · obtain ⟨rfl, rfl, rfl, rfl, rfl, rfl, rfl, rfl, rfl, rfl, rfl, rfl, rfl, rfl⟩ := of_decide_eq_true h
    rfl
  · cases h

/-- `_read` of an object takes what is known of its class. -/
def Reads (K : Known) (c : Calls) : Prop := ∀ (σ : State) (r : Nat) (o : Obj) (d : Cost), σ.heap[r]? = some o → K.read o.cls = some d → At d σ ((c.method r "_read" []).run σ)

/-- The streams are these, and the object `r` is of that class. -/
def Made (S : List Stream) (r : Nat) (cls : String) (σ : State) : Prop := σ.streams = S ∧ ∃ o, σ.heap[r]? = some o ∧ o.cls = cls

theorem at_keeps {I : State → Prop} {t : Nat} {Q : α → Prop} {d : Cost} {m : T α} {f : α → T β} {σ : State} (hm : Keeps I I t Q m) (hσ : I σ)
    (hl : ∀ τ, I τ → left τ = left σ) (hf : ∀ a τ, Q a → I τ → At d τ ((f a).run τ)) : At ⟨d.a + t, d.b, d.k⟩ σ ((m >>= f).run σ) := by
  obtain ⟨h1, h2⟩ := hm σ hσ
  rw [run_bind]
  rcases hr : m.run σ with ⟨u, ⟨a, τ⟩ | ⟨e, τ⟩⟩
  · rw [hr] at h1 h2
    obtain ⟨h3, h4⟩ := h2 a τ rfl
    have h5 := hf a τ h4 h3
    have h6 := hl τ h3
    dsimp only at h1 ⊢
    rcases hy : (f a).run τ with ⟨w, ⟨b, υ⟩ | ⟨e, υ⟩⟩
    · rw [hy] at h5
      obtain ⟨h7, h8⟩ := at_ok h5
      show left υ + d.k ≤ left σ ∧ u + w + d.b * left υ ≤ d.a + t + d.b * left σ
      rw [← h6]
      omega
    · rw [hy] at h5
      have h7 := at_raise h5
      show u + w ≤ d.a + t + d.b * left σ
      rw [← h6]
      omega
  · rw [hr] at h1
    show u ≤ d.a + t + d.b * left σ
    dsimp only at h1
    omega

theorem at_init (P : Program) {K : Known} {c : Calls} (hr : Reads K c) {cls : String} {d : Cost} (hd : K.read cls = some d) (σ : State) (r : Nat)
    (ho : ∃ o, σ.heap[r]? = some o ∧ o.cls = cls) (args : List Val) : At ⟨d.a + 14, d.b, d.k⟩ σ ((call P c usual (.obj r :: args)).run σ) := by
  have henv : ∃ a b e, usual.params.zip ((.obj r :: args) ++ List.replicate (usual.params.length - (Val.obj r :: args).length) (.pv .none)) =
      [("self", .obj r), ("_io", a), ("_parent", b), ("_root", e)] := by
    match args with
    | [] => exact ⟨_, _, _, rfl⟩
    | [_] => exact ⟨_, _, _, rfl⟩
    | [_, _] => exact ⟨_, _, _, rfl⟩
    | x :: y :: z :: l => exact ⟨x, y, z, by simp [usual]⟩
  obtain ⟨a, b, e, henv⟩ := henv
  unfold call
  rw [henv]
  have hself : ∀ (I : State → Prop), Keeps I I 1 (fun v => v = .obj r) (eval P c [("self", .obj r), ("_io", a), ("_parent", b), ("_root", e)] (.name "self")) := fun I => by
    rw [eval]
    exact keeps_tick (t := 0) (keeps_pure 0 rfl)
  have hname : ∀ (I : State → Prop) x v, List.lookup x [("self", Val.obj r), ("_io", a), ("_parent", b), ("_root", e)] = some v →
      Keeps I I 1 (fun _ => True) (eval P c [("self", .obj r), ("_io", a), ("_parent", b), ("_root", e)] (.name x)) := fun I x v h => by
    rw [eval, h]
    exact keeps_tick (t := 0) (keeps_pure 0 trivial)
  have hset : ∀ x ex n, (∀ I, Keeps I I n (fun _ => True) (eval P c [("self", .obj r), ("_io", a), ("_parent", b), ("_root", e)] ex)) →
      Keeps (Made σ.streams r cls) (Made σ.streams r cls) (2 + n) (fun f => f = .next [("self", .obj r), ("_io", a), ("_parent", b), ("_root", e)])
        (exec P c (.setattr (.name "self") x ex) [("self", .obj r), ("_io", a), ("_parent", b), ("_root", e)]) := by
    intro x ex n hx
    rw [exec]
    refine (keeps_tick (t := n + (1 + 0)) (keeps_bind (hx _) fun v _ => keeps_bind (hself _) fun w hw => ?_)).more (by omega) fun _ h => h
    subst hw
    refine keeps_bind (J := Made σ.streams r cls) (t := 0) (u := 0) (Q := fun _ => True) ?_ fun _ _ => keeps_pure 0 rfl
    rintro τ ⟨h1, o, h2, h3⟩
    refine ⟨Nat.zero_le _, fun u υ h => ?_⟩
    change store r x v τ = _ at h
    unfold store at h
    rw [h2] at h
    cases h
    exact ⟨⟨h1, _, List.getElem?_set_self (List.getElem?_eq_some_iff.1 h2).1, h3⟩, trivial⟩
  have h1 := hset "_io" (.name "_io") 1 fun I => hname I "_io" a rfl
  have h2 := hset "_parent" (.name "_parent") 1 fun I => hname I "_parent" b rfl
  have h3 := hset "_root" (.ifExp (.name "_root") (.name "_root") (.name "self")) 3 fun I => by
    rw [eval]
    refine keeps_tick (t := 1 + 1) (keeps_bind (t := 1) (u := 1) (hname I "_root" e rfl) fun v _ => ?_)
    split
    · exact hname I "_root" e rfl
    · exact (hself I).more (Nat.le_refl _) fun _ _ => trivial
  rw [show usual.body = [_, _, _, _] from rfl]
  have hrest : ∀ τ, Made σ.streams r cls τ → At ⟨d.a + 3, d.b, d.k⟩ τ ((exec P c (.expr (.call (.attr (.name "self") "_read") [])) [("self", .obj r), ("_io", a), ("_parent", b), ("_root", e)]).run τ) := by
    rintro τ ⟨h1, o, h2, h3⟩
    rw [exec]
    · rw [eval]
      · rw [eval, evals]
        have hm := hr τ r o d h2 (h3 ▸ hd)
        have e1 : (tick >>= fun _ => (tick >>= fun _ => (tick >>= fun _ => (pure (Val.obj r) : T Val)) >>= fun v => (pure [] : T (List Val)) >>= fun l => invoke c v "_read" l) >>= fun _ =>
            (pure (Flow.next [("self", .obj r), ("_io", a), ("_parent", b), ("_root", e)]) : T Flow)).run τ =
            (match (c.method r "_read" []).run τ with
              | (t, .ok _ υ) => (3 + t, .ok (Flow.next [("self", .obj r), ("_io", a), ("_parent", b), ("_root", e)]) υ)
              | (t, .raise e υ) => (3 + t, .raise e υ)) := by
          have e2 : (tick >>= fun _ => (tick >>= fun _ => (pure (Val.obj r) : T Val)) >>= fun v => (pure [] : T (List Val)) >>= fun l => invoke c v "_read" l).run τ =
              (2 + ((c.method r "_read" []).run τ).1, ((c.method r "_read" []).run τ).2) := by
            rw [run_tick, run_ok (m := tick >>= fun _ => (pure (Val.obj r) : T Val)) (t := 1) (a := .obj r) (τ := τ) rfl, t_pure_bind, invoke]
            dsimp only
            rw [← Nat.add_assoc]
          rw [run_tick]
          rcases hy : (c.method r "_read" []).run τ with ⟨t, ⟨x, υ⟩ | ⟨e', υ⟩⟩
          · rw [hy] at e2
            rw [run_ok e2, run_pure]
            dsimp only
            rw [Nat.add_zero, ← Nat.add_assoc]
          · rw [hy] at e2
            rw [run_raise e2]
            dsimp only
            rw [← Nat.add_assoc]
        refine Eq.mpr (congrArg (At _ τ) e1) ?_
        rcases hy : (c.method r "_read" []).run τ with ⟨t, ⟨x, υ⟩ | ⟨e', υ⟩⟩
        · rw [hy] at hm
          obtain ⟨h4, h5⟩ := at_ok hm
          show left υ + d.k ≤ left τ ∧ 3 + t + d.b * left υ ≤ d.a + 3 + d.b * left τ
          omega
        · rw [hy] at hm
          have h4 := at_raise hm
          show 3 + t ≤ d.a + 3 + d.b * left τ
          omega
      · intro _ _ h; cases h
    · intro _ _ _ h; cases h
  have hleft : ∀ τ υ, Made σ.streams r cls τ → Made σ.streams r cls υ → left υ = left τ := fun τ υ h h' => by unfold left; rw [h.1, h'.1]
  have hσ : Made σ.streams r cls σ := ⟨rfl, ho⟩
  have key : At ⟨d.a + 14, d.b, d.k⟩ σ ((execs P c [.setattr (.name "self") "_io" (.name "_io"), .setattr (.name "self") "_parent" (.name "_parent"),
      .setattr (.name "self") "_root" (.ifExp (.name "_root") (.name "_root") (.name "self")), .expr (.call (.attr (.name "self") "_read") [])]
      [("self", .obj r), ("_io", a), ("_parent", b), ("_root", e)]).run σ) := by
    rw [execs]
    refine (at_keeps (d := ⟨d.a + 11, d.b, d.k⟩) h1 hσ (fun τ h => hleft _ _ hσ h) fun f τ hf hτ => ?_).mono ⟨by show d.a + 11 + 3 ≤ d.a + 14; omega, Nat.le_refl _, Nat.le_refl _⟩
    subst hf
    dsimp only
    rw [execs]
    refine (at_keeps (d := ⟨d.a + 8, d.b, d.k⟩) h2 hτ (fun υ h => hleft _ _ hτ h) fun f υ hf hυ => ?_).mono ⟨by show d.a + 8 + 3 ≤ d.a + 11; omega, Nat.le_refl _, Nat.le_refl _⟩
    subst hf
    dsimp only
    rw [execs]
    refine (at_keeps (d := ⟨d.a + 3, d.b, d.k⟩) h3 hυ (fun ω h => hleft _ _ hυ h) fun f ω hf hω => ?_).mono ⟨by show d.a + 3 + 5 ≤ d.a + 8; omega, Nat.le_refl _, Nat.le_refl _⟩
    subst hf
    dsimp only
    rw [execs]
    have := at_bind (d := nothing) (hrest ω hω) (f := fun f => match f with | .next env => execs P c [] env | f => pure f) fun t f υ _ => by
      cases f with
      | next env => exact (by rw [execs]; exact within_pure _ υ : At nothing υ ((execs P c [] env).run υ))
      | brk env => exact within_pure _ υ
      | ret v => exact within_pure _ υ
    rwa [seq_nothing] at this
  have := at_bind (d := nothing) key (f := fun f => match f with | .ret v => (pure v : T Val) | _ => pure (.pv .none)) fun t f υ _ => by
    cases f <;> exact within_pure _ υ
  rwa [seq_nothing] at this

/-! ### Calls -/

/-- Whether `c` is at most `d`. -/
def Cost.leb (c d : Cost) : Bool := c.a ≤ d.a && c.b ≤ d.b && d.k ≤ c.k

theorem Cost.le_of_leb {c d : Cost} (h : c.leb d = true) : c.le d := by
  unfold Cost.leb at h
  simp only [Bool.and_eq_true, decide_eq_true_eq] at h
  exact ⟨h.1.1, h.1.2, h.2⟩

/-- What the statements take is known. -/
def covers (K : Known) (known : Option Cost) (body : List Stmt) : Bool :=
  match known, (scosts K body).c0 with
  | some d, some c => c.leb d
  | _, _ => false

theorem covers_some {K : Known} {known : Option Cost} {body : List Stmt} {d : Cost} (hd : known = some d) (h : covers K known body = true) :
    ∃ c, (scosts K body).c0 = some c ∧ c.le d := by
  subst hd
  unfold covers at h
  split at h
  · rename_i d' c h1 h2
    cases h1
    exact ⟨c, h2, Cost.le_of_leb h⟩
  · cases h

/-- What is known covers the class. -/
def ClassDef.covered (K : Known) (d : ClassDef) : Bool :=
  d.methods.all (fun m => if m.1 = "__init__" then isInit m.2 else m.1 == "_read" && covers K (K.read d.name) m.2.body) &&
  d.properties.all fun p => p.1 != "_io" && ((K.prop p.1).isNone || covers K (K.prop p.1) p.2.body)

theorem method_mem {P : Program} {cls m : String} {f : Function} (h : P.method cls m = some f) : ∃ d ∈ P.classes, d.name = cls ∧ (m, f) ∈ d.methods := by
  unfold Program.method at h
  obtain ⟨d, hd, hf⟩ := Option.bind_eq_some_iff.1 h
  unfold Program.class at hd
  have hp := List.find?_some hd
  exact ⟨d, List.mem_of_find?_eq_some hd, by simpa using hp, lookup_mem hf⟩

theorem property_mem {P : Program} {cls x : String} {f : Function} (h : P.property cls x = some f) : ∃ d ∈ P.classes, d.name = cls ∧ (x, f) ∈ d.properties := by
  unfold Program.property at h
  obtain ⟨d, hd, hf⟩ := Option.bind_eq_some_iff.1 h
  unfold Program.class at hd
  have hp := List.find?_some hd
  exact ⟨d, List.mem_of_find?_eq_some hd, by simpa using hp, lookup_mem hf⟩

theorem at_discard {d : Cost} {m : T α} {σ : State} (h : At d σ (m.run σ)) : At d σ ((discard m).run σ) := by
  unfold T.run discard
  unfold T.run at h
  rcases hr : m σ with ⟨t, ⟨a, τ⟩ | ⟨e, τ⟩⟩
  · rw [hr] at h; exact h
  · rw [hr] at h; exact h

theorem bounds_calls {P : Program} {K : Known} (hK : ∀ d ∈ P.classes, ClassDef.covered K d = true) : ∀ n, Bounds K (calls P n) ∧ Reads K (calls P n)
  | 0 => ⟨⟨fun _ _ _ _ => within_raise _ _, fun _ _ _ σ _ => ⟨_, σ, rfl⟩, fun _ _ _ _ => within_raise _ _, fun _ σ => ⟨_, σ, rfl⟩⟩,
      fun σ _ _ _ _ _ => within_raise _ _ σ⟩
  | n + 1 => by
    obtain ⟨hb, hr⟩ := bounds_calls hK n
    have hm : ∀ {cls m f}, P.method cls m = some f → if m = "__init__" then f = usual else m = "_read" ∧ ∀ d, K.read cls = some d → ∀ args, Within d (call P (calls P n) f args) := by
      intro cls m f h
      obtain ⟨d, hd, rfl, hmem⟩ := method_mem h
      have := hK d hd
      unfold ClassDef.covered at this
      rw [Bool.and_eq_true] at this
      have := List.all_eq_true.1 this.1 _ hmem
      dsimp only at this
      split at this
      · rename_i hi
        rw [if_pos hi]
        exact isInit_iff this
      · rename_i hi
        rw [if_neg hi]
        simp only [Bool.and_eq_true, beq_iff_eq] at this
        refine ⟨this.1, fun c hc args => ?_⟩
        obtain ⟨c', h1, h2⟩ := covers_some hc this.2
        exact (within_call P hb h1 args).mono h2
    have hp : ∀ {cls x f}, P.property cls x = some f → x ≠ "_io" ∧ ∀ d, K.prop x = some d → ∀ args, Within d (call P (calls P n) f args) := by
      intro cls x f h
      obtain ⟨d, hd, rfl, hmem⟩ := property_mem h
      have := hK d hd
      unfold ClassDef.covered at this
      rw [Bool.and_eq_true] at this
      have := List.all_eq_true.1 this.2 _ hmem
      simp only [Bool.and_eq_true, bne_iff_ne, Bool.or_eq_true] at this
      refine ⟨this.1, fun c hc args => ?_⟩
      rcases this.2 with h | h
      · rw [hc] at h; cases h
      · obtain ⟨c', h1, h2⟩ := covers_some hc h
        exact (within_call P hb h1 args).mono h2
    have hf : ∀ {γ : Type} (r : Nat) (f : Obj → T γ) (σ : State), (∃ o, σ.heap[r]? = some o ∧ (free (fetch r) >>= f).run σ = (f o).run σ) ∨
        (free (fetch r) >>= f).run σ = (0, .raise .attribute σ) := by
      intro γ r f σ
      cases ho : σ.heap[r]? with
      | none =>
        refine .inr (run_raise ?_)
        rw [run_free]
        unfold M.run fetch
        rw [ho]
      | some o =>
        refine .inl ⟨o, rfl, ?_⟩
        rw [run_ok (t := 0) (a := o) (τ := σ)]
        · rw [Nat.zero_add]
        · rw [run_free]
          unfold M.run fetch
          rw [ho]
    refine ⟨⟨fun cls args d hd => ?_, fun r m args σ hm' => ?_, fun r x d hd => ?_, fun r σ => ?_⟩, fun σ r o d ho hd => ?_⟩
    · intro σ
      refine at_discard ?_
      cases hi : P.method cls "__init__" with
      | none => exact within_raise _ _ σ
      | some f =>
        have := hm hi
        rw [if_pos rfl] at this
        subst this
        dsimp only
        rw [run_ok (t := 0) (a := σ.heap.length) (τ := ⟨σ.heap ++ [⟨cls, []⟩], σ.streams⟩) rfl]
        have h := at_init P hr hd ⟨σ.heap ++ [⟨cls, []⟩], σ.streams⟩ σ.heap.length ⟨⟨cls, []⟩, by simp, rfl⟩ args
        have h := at_bind h (d := nothing) (f := fun _ => (pure (Val.obj σ.heap.length) : T Val)) fun _ _ τ _ => within_pure _ τ
        rw [seq_nothing] at h
        rw [Nat.zero_add]
        exact h.mono ⟨by show d.a + 14 ≤ d.a + 20; omega, Nat.le_refl _, Nat.le_refl _⟩
    · rcases hf r (fun o => match P.method o.cls m with | some f => call P (calls P n) f (.obj r :: args) | none => free (raise .attribute)) σ with ⟨o, ho, h⟩ | h
      · refine ⟨.attribute, σ, ?_⟩
        refine h.trans ?_
        cases hi : P.method o.cls m with
        | none => rfl
        | some f =>
          have := hm hi
          split at this
          · rename_i e; subst e; exact absurd (by decide) hm'
          · obtain ⟨rfl, -⟩ := this; exact absurd (by decide) hm'
      · exact ⟨_, _, h⟩
    · intro σ
      rcases hf r (fun o => match P.property o.cls x with | some f => call P (calls P n) f [.obj r] | none => free (raise .attribute)) σ with ⟨o, ho, h⟩ | h
      · refine Eq.mpr (congrArg (At d σ) h) ?_
        cases hi : P.property o.cls x with
        | none => exact within_raise _ _ σ
        | some f => exact (hp hi).2 d hd _ σ
      · refine Eq.mpr (congrArg (At d σ) h) ?_
        exact Nat.zero_le _
    · rcases hf r (fun o => match P.property o.cls "_io" with | some f => call P (calls P n) f [.obj r] | none => free (raise .attribute)) σ with ⟨o, ho, h⟩ | h
      · refine ⟨.attribute, σ, h.trans ?_⟩
        cases hi : P.property o.cls "_io" with
        | none => rfl
        | some f => exact absurd rfl (hp hi).1
      · exact ⟨_, _, h⟩
    · rcases hf r (fun o => match P.method o.cls "_read" with | some f => call P (calls P n) f (.obj r :: []) | none => free (raise .attribute)) σ with ⟨o', ho', h⟩ | h
      · refine Eq.mpr (congrArg (At d σ) h) ?_
        rw [ho] at ho'
        cases ho'
        cases hi : P.method o.cls "_read" with
        | none => exact within_raise _ _ σ
        | some f =>
          have := hm hi
          rw [if_neg (by decide)] at this
          exact this.2 d hd _ σ
      · refine Eq.mpr (congrArg (At d σ) h) ?_
        exact Nat.zero_le _

end Dmr.Py.Time
