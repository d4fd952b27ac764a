import Verif.Py.TimeCalls
import Verif.Py.Base
/-
How deeply the calls of a program nest. `calls P n` (Verif/Py/Semantics) allows `n` of them inside each other. If every class and every
property has a level, and the functions call only what has a lower one, then `n` does not matter from there on.
-/

set_option autoImplicit false

namespace Dmr.Py.Depth

variable {α β : Type}

/-- Levels of the classes and of the properties by name; a class that is not listed has the level 3, and another attribute than
those listed the level 1. -/
structure Levels where
  classes : List (String × Nat)
  properties : List (String × Nat)

/-- The level of a class. -/
def Levels.cls (K : Levels) (n : String) : Nat := (K.classes.lookup n).getD 2 + 1
/-- The level of a property. -/
def Levels.prop (K : Levels) (x : String) : Nat := (K.properties.lookup x).getD 0 + 1

mutual
/-- Whether the expression calls only what has at most the level `k`. -/
def low (K : Levels) (k : Nat) : Expr → Bool
  | .none | .bool _ | .int _ | .str _ | .bytes _ | .emptyList | .name _ | .global _ | .cls _ | .enum _ => true
  | .attr e x => decide (K.prop x ≤ k) && low K k e
  | .call (.cls n) args => decide (K.cls n ≤ k) && lows K k args
  | .call (.attr e m) args => decide (1 ≤ k) && decide (m ≠ "__init__") && decide (m ≠ "_read") && low K k (.attr e m) && lows K k args
  | .call _ args => lows K k args
  | .bin _ a b | .cmp _ a b | .and a b | .or a b => low K k a && low K k b
  | .not a => low K k a
  | .ifExp t a b => low K k t && low K k a && low K k b
/-- Whether all expressions do. -/
def lows (K : Levels) (k : Nat) : List Expr → Bool
  | [] => true
  | e :: rest => low K k e && lows K k rest
end

mutual
/-- Whether the statement calls only what has at most the level `k`. -/
def stmtLow (K : Levels) (k : Nat) : Stmt → Bool
  | .assign _ e | .expr e | .raise_ e | .return_ e => low K k e
  | .setattr o _ e => low K k o && low K k e
  | .if_ t a b => low K k t && stmtsLow K k a && stmtsLow K k b
  | .for_ _ it body => low K k it && stmtsLow K k body
  | .while_ t body => low K k t && stmtsLow K k body
  | .break_ | .pass_ => true
/-- Whether all statements do. -/
def stmtsLow (K : Levels) (k : Nat) : List Stmt → Bool
  | [] => true
  | st :: rest => stmtLow K k st && stmtsLow K k rest
end

/-- What has at most the level `k` does the same. -/
structure Alike (K : Levels) (k : Nat) (c c' : Calls) : Prop where
  construct : ∀ n, K.cls n ≤ k → ∀ args, c.construct n args = c'.construct n args
  method : 1 ≤ k → ∀ r m args, m ≠ "__init__" → m ≠ "_read" → c.method r m args = c'.method r m args
  property : ∀ r x, K.prop x ≤ k → c.property r x = c'.property r x

theorem bind_alike {m m' : M α} {f f' : α → M β} (hm : m = m') (hf : ∀ a, f a = f' a) : (m >>= f) = (m' >>= f') := by
  subst hm
  rw [funext hf]

theorem ite_alike {c : Prop} [Decidable c] {a b a' b' : M α} (ha : a = a') (hb : b = b') : (if c then a else b) = if c then a' else b' := by
  rw [ha, hb]

section
variable {K : Levels} {k : Nat} {c c' : Calls}

theorem getattr_alike (h : Alike K k c c') (v : Val) {x : String} (hx : K.prop x ≤ k) : getattr c v x = getattr c' v x := by
  rw [getattr.eq_def, getattr.eq_def c']
  split
  · refine bind_alike rfl fun a => ?_
    cases a.attrs.lookup x with
    | none => exact h.property _ _ hx
    | some v => rfl
  · rfl
  · rfl

theorem invoke_alike (h : Alike K k c c') (v : Val) {m : String} (hk : 1 ≤ k) (h1 : m ≠ "__init__") (h2 : m ≠ "_read") (args : List Val) :
    invoke c v m args = invoke c' v m args := by
  rw [invoke.eq_def, invoke.eq_def c']
  split
  · exact h.method hk _ _ _ h1 h2
  · rfl
  · rfl
  · rfl

mutual
theorem eval_alike (P : Program) (h : Alike K k c c') (env : Env) (e : Expr) (hf : low K k e = true) : eval P c env e = eval P c' env e := by
  match e with
  | .none | .bool _ | .int _ | .str _ | .bytes _ | .emptyList => rw [eval, eval]
  | .name x => rw [eval, eval]
  | .global _ | .cls _ | .enum _ => rw [eval, eval]
  | .attr e x =>
    rw [low, Bool.and_eq_true, decide_eq_true_eq] at hf
    have ih := eval_alike P h env e hf.2
    rw [eval.eq_def, eval.eq_def P c']
    split
    all_goals first | (rename_i heq; cases heq; done) | (rename_i heq _; cases heq; done) | skip
    all_goals rename_i heq
    all_goals cases heq
    · rfl
    · exact bind_alike ih fun v => getattr_alike h v hf.1
  | .call f args =>
    have hall : lows K k args = true := by
      unfold low at hf
      split at hf
      all_goals first | (rename_i heq; cases heq; done) | (rename_i heq _; cases heq; done) | skip
      all_goals rename_i heq
      all_goals cases heq
      · rw [Bool.and_eq_true] at hf; exact hf.2
      · rw [Bool.and_eq_true] at hf; exact hf.2
      · exact hf
    have hargs := evals_alike P h env args hall
    have hm : ∀ e m, f = .attr e m → 1 ≤ k ∧ m ≠ "__init__" ∧ m ≠ "_read" ∧ eval P c env e = eval P c' env e := by
      match f with
      | .attr e m =>
        rw [low] at hf
        simp only [Bool.and_eq_true, decide_eq_true_eq] at hf
        obtain ⟨⟨⟨⟨h1, h2⟩, h3⟩, h4⟩, -⟩ := hf
        rw [low, Bool.and_eq_true] at h4
        have := eval_alike P h env e h4.2
        intro e' m' he; cases he; exact ⟨h1, h2, h3, this⟩
      | .none | .bool _ | .int _ | .str _ | .bytes _ | .emptyList | .name _ | .global _ | .cls _ | .enum _ | .call _ _ | .bin _ _ _ | .cmp _ _ _
      | .not _ | .and _ _ | .or _ _ | .ifExp _ _ _ => intro e' m' h; cases h
    have hn : ∀ n, f = .cls n → K.cls n ≤ k := by
      rintro n rfl
      rw [low, Bool.and_eq_true, decide_eq_true_eq] at hf
      exact hf.1
    have hx : ∀ a x, args = [a, x] → eval P c env x = eval P c' env x := by
      match args with
      | [a, x] =>
        rw [lows, lows, Bool.and_eq_true, Bool.and_eq_true] at hall
        have := eval_alike P h env x hall.2.1
        intro a' x' h; cases h; exact this
      | [] | [_] | _ :: _ :: _ :: _ => intro a' x' h; cases h
    rw [eval.eq_def, eval.eq_def P c']
    split
    all_goals first | (rename_i heq; cases heq; done) | (rename_i heq _; cases heq; done) | skip
    all_goals rename_i heq
    all_goals cases heq
    · exact bind_alike hargs fun _ => h.construct _ (hn _ rfl) _
    · exact bind_alike hargs fun _ => rfl
    · exact bind_alike (hx _ _ rfl) fun v => rfl
    · obtain ⟨h1, h2, h3, h4⟩ := hm _ _ rfl
      exact bind_alike h4 fun v => bind_alike hargs fun _ => invoke_alike h v h1 h2 h3 _
    · rfl
  | .bin op a b =>
    rw [low, Bool.and_eq_true] at hf
    rw [eval, eval]
    exact bind_alike (eval_alike P h env a hf.1) fun x => bind_alike (eval_alike P h env b hf.2) fun y => rfl
  | .cmp op a b =>
    rw [low, Bool.and_eq_true] at hf
    rw [eval, eval]
    exact bind_alike (eval_alike P h env a hf.1) fun x => bind_alike (eval_alike P h env b hf.2) fun y => rfl
  | .not a => rw [low] at hf; rw [eval, eval]; exact bind_alike (eval_alike P h env a hf) fun x => rfl
  | .and a b =>
    rw [low, Bool.and_eq_true] at hf
    rw [eval, eval]
    exact bind_alike (eval_alike P h env a hf.1) fun x => ite_alike (eval_alike P h env b hf.2) rfl
  | .or a b =>
    rw [low, Bool.and_eq_true] at hf
    rw [eval, eval]
    exact bind_alike (eval_alike P h env a hf.1) fun x => ite_alike rfl (eval_alike P h env b hf.2)
  | .ifExp t a b =>
    rw [low, Bool.and_eq_true, Bool.and_eq_true] at hf
    rw [eval, eval]
    exact bind_alike (eval_alike P h env t hf.1.1) fun x => ite_alike (eval_alike P h env a hf.1.2) (eval_alike P h env b hf.2)
theorem evals_alike (P : Program) (h : Alike K k c c') (env : Env) (l : List Expr) (hf : lows K k l = true) : evals P c env l = evals P c' env l := by
  match l with
  | [] => rw [evals, evals]
  | e :: rest =>
    rw [lows, Bool.and_eq_true] at hf
    rw [evals, evals]
    exact bind_alike (eval_alike P h env e hf.1) fun _ => bind_alike (evals_alike P h env rest hf.2) fun _ => rfl
end

theorem low_attr {e : Expr} {x : String} (h : low K k (.attr e x) = true) : low K k e = true := by
  rw [low, Bool.and_eq_true] at h
  exact h.2

theorem low_call {e : Expr} {x : String} {args : List Expr} (h : low K k (.call (.attr e x) args) = true) : low K k e = true ∧ lows K k args = true := by
  rw [low, Bool.and_eq_true, Bool.and_eq_true] at h
  exact ⟨low_attr h.1.2, h.2⟩

mutual
theorem exec_alike (P : Program) (h : Alike K k c c') (st : Stmt) (hf : stmtLow K k st = true) (env : Env) : exec P c st env = exec P c' st env := by
  have he := eval_alike P h
  match st with
  | .assign x e => rw [stmtLow] at hf; rw [exec, exec]; exact bind_alike (he _ _ hf) fun _ => rfl
  | .setattr o x e =>
    rw [stmtLow, Bool.and_eq_true] at hf
    rw [exec, exec]
    exact bind_alike (he _ _ hf.2) fun v => bind_alike (he _ _ hf.1) fun w => rfl
  | .expr e =>
    rw [stmtLow] at hf
    rw [exec.eq_def, exec.eq_def P c']
    split
    all_goals first | (rename_i heq; cases heq; done) | (rename_i heq _; cases heq; done) | skip
    · rename_i heq
      cases heq
      obtain ⟨h1, h2⟩ := low_call hf
      rw [lows, Bool.and_eq_true] at h2
      refine bind_alike (he _ _ (low_attr h1)) fun v => ?_
      cases v with
      | obj r =>
        refine bind_alike rfl fun o => ?_
        generalize List.lookup (α := String) (β := Val) _ _ = w
        cases w with
        | none => rfl
        | some w =>
          cases w <;> first | rfl | skip
          exact bind_alike (he _ _ h2.1) fun v => rfl
      | pv _ | io _ | file _ | list _ => rfl
    · rename_i hno heq
      cases heq
      exact bind_alike (he _ _ hf) fun _ => rfl
  | .if_ t a b =>
    rw [stmtLow, Bool.and_eq_true, Bool.and_eq_true] at hf
    rw [exec, exec]
    exact bind_alike (he _ _ hf.1.1) fun _ => ite_alike (execs_alike P h a hf.1.2 env) (execs_alike P h b hf.2 env)
  | .for_ x it body =>
    rw [stmtLow, Bool.and_eq_true] at hf
    have hb : (fun env => execs P c body env) = fun env => execs P c' body env := funext (execs_alike P h body hf.2)
    rw [exec, exec, hb]
    exact bind_alike (he _ _ hf.1) fun v => rfl
  | .while_ t body =>
    rw [stmtLow, Bool.and_eq_true] at hf
    have hb : (fun env => execs P c body env) = fun env => execs P c' body env := funext (execs_alike P h body hf.2)
    have ht : (fun env => eval P c env t) = fun env => eval P c' env t := funext fun env => he env t hf.1
    have ht' : ∀ env, eval P c env t = eval P c' env t := fun env => he env t hf.1
    rw [exec, exec, hb]
    simp only [ht']
  | .break_ => rw [exec, exec]
  | .pass_ => rw [exec, exec]
  | .raise_ e =>
    rw [stmtLow] at hf
    rw [exec.eq_def, exec.eq_def P c']
    split
    all_goals first | (rename_i heq; cases heq; done) | (rename_i heq _; cases heq; done) | skip
    · rename_i heq
      cases heq
      obtain ⟨h1, h2⟩ := low_call hf
      rw [lows, Bool.and_eq_true, lows, Bool.and_eq_true, lows, Bool.and_eq_true] at h2
      exact bind_alike (he _ _ h2.1) fun _ => bind_alike (he _ _ h2.2.1) fun _ => bind_alike (he _ _ h2.2.2.1) fun _ => rfl
    · rfl
  | .return_ e => rw [stmtLow] at hf; rw [exec, exec]; exact bind_alike (he _ _ hf) fun _ => rfl
theorem execs_alike (P : Program) (h : Alike K k c c') (l : List Stmt) (hf : stmtsLow K k l = true) (env : Env) : execs P c l env = execs P c' l env := by
  match l with
  | [] => rw [execs, execs]
  | st :: rest =>
    rw [stmtsLow, Bool.and_eq_true] at hf
    have h2 := execs_alike P h rest hf.2
    rw [execs, execs]
    refine bind_alike (exec_alike P h st hf.1 env) fun f => ?_
    cases f with
    | next env => exact h2 env
    | brk env => rfl
    | ret v => rfl
end

theorem call_alike (P : Program) (h : Alike K k c c') (f : Function) (hf : stmtsLow K k f.body = true) (args : List Val) :
    f.call P c args = f.call P c' args := by
  unfold Function.call
  exact bind_alike (execs_alike P h _ hf _) fun _ => rfl
end

/-- The levels of the class are right: what `_read` and the properties call is of lower levels. -/
def levelled (K : Levels) (d : ClassDef) : Bool :=
  decide (2 ≤ K.cls d.name) &&
  d.methods.all (fun m => if m.1 = "__init__" then Time.isInit m.2 else m.1 == "_read" && stmtsLow K (K.cls d.name - 2) m.2.body) &&
  d.properties.all fun p => stmtsLow K (K.prop p.1 - 1) p.2.body

/-- The usual `__init__` makes the attributes and calls `_read`. -/
theorem usual_run (P : Program) (r : Nat) (args : List Val) : ∃ a b e : Val, ∀ (c : Calls) (H : List Obj) (S : List Stream) (o : Obj), H[r]? = some o →
    (Time.usual.call P c (.obj r :: args)).run ⟨H, S⟩ =
      ((c.method r "_read" []).run ⟨H.set r ⟨o.cls, upsert "_root" (if truthy e then e else .obj r) (upsert "_parent" b (upsert "_io" a o.attrs))⟩, S⟩).bind
        fun _ σ => .ok (.pv .none) σ := by
  have henv : ∃ a b e, Time.usual.params.zip ((.obj r :: args) ++ List.replicate (Time.usual.params.length - (Val.obj r :: args).length) (.pv .none)) =
      [("self", .obj r), ("_io", a), ("_parent", b), ("_root", e)] := by
    match args with
    | [] => exact ⟨_, _, _, rfl⟩
    | [_] => exact ⟨_, _, _, rfl⟩
    | [_, _] => exact ⟨_, _, _, rfl⟩
    | x :: y :: z :: l => exact ⟨x, y, z, by simp [Time.usual]⟩
  obtain ⟨a, b, e, henv⟩ := henv
  refine ⟨a, b, e, fun c H S o ho => ?_⟩
  unfold Function.call
  rw [henv]
  have hl : r < H.length := (List.getElem?_eq_some_iff.1 ho).1
  have hs : ∀ (x : String) (v : Val) (G : List Obj) (q : Obj), G[r]? = some q → (store r x v).run ⟨G, S⟩ = .ok () ⟨G.set r ⟨q.cls, upsert x v q.attrs⟩, S⟩ := by
    intro x v G q hq
    show store r x v _ = _
    unfold store
    dsimp only
    rw [hq]
  have e1 := hs "_io" a H o ho
  have e2 := hs "_parent" b (H.set r ⟨o.cls, upsert "_io" a o.attrs⟩) _ (List.getElem?_set_self hl)
  have e3 := fun v => hs "_root" v (H.set r ⟨o.cls, upsert "_parent" b (upsert "_io" a o.attrs)⟩) _ (List.getElem?_set_self hl)
  simp only [List.set_set] at e2 e3
  simp only [py, Time.usual, String.reduceEq, if_true, if_false, e1, bind_ok, e2]
  split
  · simp only [py, String.reduceEq, if_true, if_false, e3, bind_ok]
    cases (c.method r "_read" []).run _ <;> rfl
  · simp only [py, String.reduceEq, if_true, if_false, e3, bind_ok]
    cases (c.method r "_read" []).run _ <;> rfl

theorem one_le_cls (K : Levels) (n : String) : 1 ≤ K.cls n := Nat.le_add_left ..
theorem one_le_prop (K : Levels) (n : String) : 1 ≤ K.prop n := Nat.le_add_left ..

section
variable {P : Program} {K : Levels} (hP : ∀ d ∈ P.classes, levelled K d = true)
include hP

theorem method_cases {cls m : String} {f : Function} (h : P.method cls m = some f) :
    2 ≤ K.cls cls ∧ (m = "__init__" ∧ f = Time.usual ∨ m = "_read" ∧ stmtsLow K (K.cls cls - 2) f.body = true) := by
  obtain ⟨d, hd, rfl, hm⟩ := Time.method_mem h
  have h1 := hP d hd
  rw [levelled, Bool.and_eq_true, Bool.and_eq_true, decide_eq_true_eq] at h1
  refine ⟨h1.1.1, ?_⟩
  have h2 := List.all_eq_true.1 h1.1.2 _ hm
  dsimp only at h2
  split at h2
  · exact .inl ⟨by assumption, Time.isInit_iff h2⟩
  · simp only [Bool.and_eq_true, beq_iff_eq] at h2
    exact .inr ⟨h2.1, h2.2⟩

theorem property_low {cls x : String} {f : Function} (h : P.property cls x = some f) : stmtsLow K (K.prop x - 1) f.body = true := by
  obtain ⟨d, hd, rfl, hm⟩ := Time.property_mem h
  have h1 := hP d hd
  rw [levelled, Bool.and_eq_true] at h1
  exact List.all_eq_true.1 h1.2 _ hm

/-- What has at most the level `k` does the same whether so many calls may nest or more. -/
theorem calls_alike : ∀ k n m, k ≤ n → k ≤ m → Alike K k (calls P n) (calls P m) := by
  intro k
  induction k using Nat.strongRecOn with
  | _ k ih =>
  intro n m hn hm
  match k, n, m with
  | 0, n, m => exact ⟨fun x h => absurd (one_le_cls K x) (by omega), fun h => absurd h (by omega), fun r x h => absurd (one_le_prop K x) (by omega)⟩
  | k + 1, 0, m => omega
  | k + 1, n + 1, 0 => omega
  | k + 1, n + 1, m + 1 =>
    refine ⟨fun cls hc args => ?_, fun _ r x args h1 h2 => ?_, fun r x hx => ?_⟩
    · rw [calls, calls]
      dsimp only
      cases hi : P.method cls "__init__" with
      | none => rfl
      | some f =>
        rcases method_cases hP hi with ⟨h4, ⟨-, rfl⟩ | ⟨h, -⟩⟩
        · dsimp only
          funext σ
          show (discard _).run σ = (discard _).run σ
          rw [run_discard, run_discard]
          congr 1
          obtain ⟨H, S⟩ := σ
          rw [run_bind, run_bind, run_alloc, bind_ok, bind_ok, run_bind, run_bind]
          congr 1
          obtain ⟨a, b, e, h3⟩ := usual_run P H.length args
          have ho : (H ++ [(⟨cls, []⟩ : Obj)])[H.length]? = some ⟨cls, []⟩ := by simp
          rw [h3 _ _ _ _ ho, h3 _ _ _ _ ho]
          congr 1
          generalize hτ : State.mk _ S = τ
          have hcls : ∃ o, τ.heap[H.length]? = some o ∧ o.cls = cls := by
            subst hτ
            exact ⟨_, List.getElem?_set_self (by simp), rfl⟩
          obtain ⟨o, ho, hoc⟩ := hcls
          match n, m with
          | 0, 0 => rfl
          | 0, m + 1 => omega
          | n + 1, 0 => omega
          | n + 1, m + 1 =>
          rw [calls, calls]
          dsimp only
          rw [run_bind, run_bind]
          have hf : (fetch H.length).run τ = .ok o τ := by
            show fetch _ _ = _
            unfold fetch
            rw [ho]
          rw [hf, bind_ok, bind_ok, hoc]
          cases hr : P.method cls "_read" with
          | none => rfl
          | some f =>
            rcases method_cases hP hr with ⟨-, ⟨h, -⟩ | ⟨-, h5⟩⟩
            · exact absurd h (by decide)
            · dsimp only
              rw [call_alike P (ih (K.cls cls - 2) (by omega) n m (by omega) (by omega)) f h5]
        · exact absurd h (by decide)
    · rw [calls, calls]
      dsimp only
      refine bind_alike rfl fun o => ?_
      cases hi : P.method o.cls x with
      | none => rfl
      | some f =>
        rcases method_cases hP hi with ⟨-, ⟨h, -⟩ | ⟨h, -⟩⟩
        · exact absurd h h1
        · exact absurd h h2
    · rw [calls, calls]
      dsimp only
      refine bind_alike rfl fun o => ?_
      cases hi : P.property o.cls x with
      | none => rfl
      | some f =>
        have h1 := one_le_prop K x
        exact call_alike P (ih (K.prop x - 1) (by omega) n m (by omega) (by omega)) f (property_low hP hi) _
end

end Dmr.Py.Depth
