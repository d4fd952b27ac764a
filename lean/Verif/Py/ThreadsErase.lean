import Verif.Py.Threads
/-
A thread that is alone does what Verif/Py/Semantics says: it returns the same value in the same memory, or raises the same exception. (Objects
that a constructor made before it raised stay in the memory here; nothing refers to them.)
-/

set_option autoImplicit false

namespace Dmr.Py.Threads

variable {α β : Type}

theorem run_bind (p : R α) (f : α → R β) (σ : State) : (p >>= f).run σ = (p.run σ).bind fun a τ => (f a).run τ := by
  show (p.bind f).run σ = _
  induction p generalizing σ with
  | done a => rfl
  | raise e => rfl
  | fetch r k ih =>
    show Out.bind _ _ = Out.bind (Out.bind _ _) _
    rcases (Py.fetch r).run σ with ⟨a, τ⟩ | ⟨e, τ⟩
    · exact ih _ _
    · rfl
  | store r x v k ih =>
    show Out.bind _ _ = Out.bind (Out.bind _ _) _
    rcases (Py.store r x v).run σ with ⟨a, τ⟩ | ⟨e, τ⟩
    · exact ih _
    · rfl
  | alloc c k ih =>
    show Out.bind _ _ = Out.bind (Out.bind _ _) _
    rcases (Py.alloc c).run σ with ⟨a, τ⟩ | ⟨e, τ⟩
    · exact ih _ _
    · rfl
  | stream b k ih =>
    show Out.bind _ _ = Out.bind (Out.bind _ _) _
    rcases (Py.open_ b).run σ with ⟨a, τ⟩ | ⟨e, τ⟩
    · exact ih _ _
    · rfl
  | io n m a k ih =>
    show Out.bind _ _ = Out.bind (Out.bind _ _) _
    rcases (ioMethod n m (a.map .pv)).run σ with ⟨a, τ⟩ | ⟨e, τ⟩
    · exact ih _ _
    · rfl
  | size n k ih =>
    show Out.bind _ _ = Out.bind (Out.bind _ _) _
    rcases (lengthOf n).run σ with ⟨a, τ⟩ | ⟨e, τ⟩
    · exact ih _ _
    · rfl

/-- The same value in the same memory, or the same exception (and then there may be more objects in the first memory: those that are lost because
a constructor has raised an exception). -/
def Alike : Out α → Out α → Prop
  | .ok a σ, .ok b τ => a = b ∧ σ = τ
  | .raise e σ, .raise f τ => e = f ∧ τ.heap <+: σ.heap ∧ τ.streams = σ.streams
  | _, _ => False

theorem Alike.refl : ∀ o : Out α, Alike o o
  | .ok _ _ => ⟨rfl, rfl⟩
  | .raise _ _ => ⟨rfl, List.prefix_refl _, rfl⟩

/-- The thread does what `m` does. -/
def Does (p : R α) (m : M α) : Prop := ∀ σ, Alike (p.run σ) (m.run σ)

theorem bind_same {p : R α} {m : M α} {f : α → R β} {g : α → M β} (hm : Does p m) (hf : ∀ a, Does (f a) (g a)) : Does (p >>= f) (m >>= g) := by
  intro σ
  rw [run_bind]
  show Alike _ (Out.bind (m.run σ) fun a τ => (g a).run τ)
  have h := hm σ
  revert h
  rcases p.run σ with ⟨a, τ⟩ | ⟨e, τ⟩ <;> rcases m.run σ with ⟨b, υ⟩ | ⟨e', υ⟩ <;> intro h
  · obtain ⟨rfl, rfl⟩ := h
    exact hf _ _
  · exact h.elim
  · exact h.elim
  · exact h

theorem does_pure (a : α) : Does (pure a : R α) (pure a) := fun _ => ⟨rfl, rfl⟩
theorem does_raise (e : PyErr) : Does (R.raise e : R α) (Py.raise e) := fun _ => ⟨rfl, List.prefix_refl _, rfl⟩
theorem ite_same {c : Prop} [Decidable c] {a b : R α} {a' b' : M α} (ha : Does a a') (hb : Does b b') : Does (if c then a else b) (if c then a' else b') := by
  split
  · exact ha
  · exact hb

theorem bind_ok (o : Out α) : (o.bind fun a σ => .ok a σ) = o := by cases o <;> rfl

theorem does_get (r : Nat) : Does (R.get r) (Py.fetch r) := fun σ => by
  show Alike (((Py.fetch r).run σ).bind fun a σ => .ok a σ) _
  rw [bind_ok]; exact Alike.refl _
theorem does_put (r : Nat) (x : String) (v : Val) : Does (R.put r x v) (Py.store r x v) := fun σ => by
  show Alike (((Py.store r x v).run σ).bind fun a σ => .ok a σ) _
  rw [bind_ok]; exact Alike.refl _
theorem does_new (c : String) : Does (R.new c) (Py.alloc c) := fun σ => by
  show Alike (((Py.alloc c).run σ).bind fun a σ => .ok a σ) _
  rw [bind_ok]; exact Alike.refl _
theorem does_open (b : Bytes) : Does (R.open_ b) (Py.open_ b) := fun σ => by
  show Alike (((Py.open_ b).run σ).bind fun a σ => .ok a σ) _
  rw [bind_ok]; exact Alike.refl _
theorem does_use (n : Nat) (m : String) (a : List PyVal) : Does (R.use n m a) (ioMethod n m (a.map .pv)) := fun σ => by
  show Alike (((ioMethod n m (a.map .pv)).run σ).bind fun a σ => .ok a σ) _
  rw [bind_ok]; exact Alike.refl _
theorem does_length (n : Nat) : Does (R.length n) (lengthOf n) := fun σ => by
  show Alike (((lengthOf n).run σ).bind fun a σ => .ok a σ) _
  rw [bind_ok]; exact Alike.refl _

/-- Calls that do the same. -/
structure CallsSame (c : Calls) (d : Py.Calls) : Prop where
  construct : ∀ n a, Does (c.construct n a) (d.construct n a)
  method : ∀ r m a, Does (c.method r m a) (d.method r m a)
  property : ∀ r x, Does (c.property r x) (d.property r x)

theorem still_binOp (op : BinOp) (x y : Val) : Does (still (op.apply x y)) (op.apply x y) := by
  rw [BinOp.apply.eq_def]
  split <;> first | exact does_pure _ | exact does_raise _ | (split <;> first | exact does_pure _ | exact does_raise _)

theorem still_cmpOp (op : CmpOp) (x y : Val) : Does (still (op.apply x y)) (op.apply x y) := by
  rw [CmpOp.apply.eq_def]
  split <;> first | exact does_pure _ | exact does_raise _

theorem builtin_same (g : String) (args : List Val) : Does (builtin g args) (Py.builtin g args) := by
  rw [builtin.eq_def, Py.builtin.eq_def]
  split
  · exact does_pure _
  · exact does_pure _
  · exact does_pure _
  · exact does_pure _
  · exact does_pure _
  · exact bind_same (does_open _) fun _ => does_pure _
  · exact bind_same (does_get _) fun _ => does_pure _
  · exact bind_same (does_get _) fun _ => does_pure _
  · split <;> first | (simp_all; done) | exact does_raise _

theorem loopBound_same (env : Env) : Does (loopBound env) (Py.loopBound env) := by
  intro σ
  unfold loopBound Py.loopBound M.run
  dsimp only
  generalize List.lookup (α := String) (β := Val) _ _ = w
  match w with
  | some (.obj r) =>
    dsimp only
    rw [run_bind]
    show Alike (Out.bind (Out.bind ((Py.fetch r).run σ) _) _) _
    unfold Py.fetch M.run
    dsimp only
    cases σ.heap[r]? with
    | none => exact ⟨rfl, List.prefix_refl _, rfl⟩
    | some o =>
      show Alike (R.run (match o.attrs.lookup "_io" with | some (.io k) => _ | _ => _) σ) _
      dsimp only
      generalize List.lookup (α := String) (β := Val) _ _ = w
      match w with
      | some (.io k) =>
        dsimp only
        rw [run_bind]
        show Alike (Out.bind (Out.bind ((lengthOf k).run σ) _) _) _
        unfold lengthOf M.run
        dsimp only
        cases σ.streams[k]? with
        | none => exact ⟨rfl, List.prefix_refl _, rfl⟩
        | some s => exact ⟨rfl, rfl⟩
      | none | some (.obj _) | some (.pv _) | some (.list _) | some (.file _) => exact ⟨rfl, List.prefix_refl _, rfl⟩
  | none | some (.io _) | some (.pv _) | some (.list _) | some (.file _) => exact ⟨rfl, List.prefix_refl _, rfl⟩

theorem getattr_same {c : Calls} {d : Py.Calls} (hc : CallsSame c d) (v : Val) (x : String) : Does (getattr c v x) (Py.getattr d v x) := by
  rw [getattr.eq_def, Py.getattr.eq_def]
  split
  · refine bind_same (does_get _) fun a => ?_
    cases a.attrs.lookup x
    · exact hc.property _ _
    · exact does_pure _
  · exact does_pure _
  · split
    · simp_all
    · simp_all
    · exact does_raise _

theorem io_other (k : Nat) (m : String) (args : List Val) (h0 : args ≠ []) (h1 : ∀ a, args ≠ [.pv a]) : ioMethod k m args = Py.raise .attribute := by
  rw [ioMethod.eq_def]
  split <;> first | exact absurd rfl h0 | exact absurd rfl (h1 _) | rfl

theorem invoke_same {c : Calls} {d : Py.Calls} (hc : CallsSame c d) (v : Val) (m : String) (args : List Val) : Does (invoke c v m args) (Py.invoke d v m args) := by
  rw [invoke.eq_def]
  split
  · exact hc.method _ _ _
  · exact does_use _ _ []
  · exact does_use _ _ [_]
  · rename_i b e
    rw [Py.invoke]
    cases codec (String.ofList e) with
    | none => exact does_raise _
    | some f => dsimp only; cases f b <;> first | exact does_pure _ | exact does_raise _
  · rw [Py.invoke.eq_def]
    split
    · simp_all
    · rename_i k m args hno h0 h1 _ 
      rw [io_other]
      · exact does_raise _
      · rintro rfl; exact h0 _ rfl rfl
      · rintro a rfl; exact h1 _ _ rfl rfl
    · simp_all
    · exact does_raise _

macro "basic" : tactic => `(tactic| first | exact does_pure _ | exact does_raise _ | exact does_get _ | exact does_put _ _ _ | exact still_binOp _ _ _ | exact still_cmpOp _ _ _ | exact builtin_same _ _ | exact loopBound_same _)

mutual
theorem eval_same (P : Program) {c : Calls} {d : Py.Calls} (hc : CallsSame c d) (env : Env) (e : Expr) : Does (eval P c env e) (Py.eval P d env e) := by
  match e with
  | .none | .bool _ | .int _ | .str _ | .bytes _ | .emptyList => rw [eval, Py.eval]; basic
  | .name x => rw [eval, Py.eval]; refine  ?_; cases env.lookup x <;> basic
  | .global _ | .cls _ | .enum _ => rw [eval, Py.eval]; basic
  | .attr e x =>
    have ih := eval_same P hc env e
    rw [eval.eq_def, Py.eval.eq_def]
    split
    all_goals first | (rename_i heq; cases heq; done) | (rename_i heq _; cases heq; done) | skip
    all_goals rename_i heq
    all_goals cases heq
    · refine  ?_
      rename_i e
      dsimp only
      cases P.enums.find? (fun d => d.qualified == e) with
      | none => basic
      | some d => dsimp only; cases d.members.lookup x <;> basic
    · rename_i h
      refine  ?_
      split
      all_goals first | (rename_i heq; cases heq; done) | (rename_i heq _; cases heq; done) | skip
      all_goals rename_i heq
      all_goals cases heq
      · exact absurd rfl (h _)
      · exact bind_same ih fun v => getattr_same hc v x
  | .call f args =>
    have hargs := evals_same P hc env args
    have hf : ∀ e m, f = .attr e m → Does (eval P c env e) (Py.eval P d env e) := by
      match f with
      | .attr e m => have := eval_same P hc env e; intro e' m' h; cases h; exact this
      | .none | .bool _ | .int _ | .str _ | .bytes _ | .emptyList | .name _ | .global _ | .cls _ | .enum _ | .call _ _ | .bin _ _ _ | .cmp _ _ _
      | .not _ | .and _ _ | .or _ _ | .ifExp _ _ _ => intro e' m' h; cases h
    have hx : ∀ a x, args = [a, x] → Does (eval P c env x) (Py.eval P d env x) := by
      match args with
      | [a, x] => have := eval_same P hc env x; intro a' x' h; cases h; exact this
      | [] | [_] | _ :: _ :: _ :: _ => intro a' x' h; cases h
    rw [eval.eq_def, Py.eval.eq_def]
    split
    all_goals first | (rename_i heq; cases heq; done) | (rename_i heq _; cases heq; done) | skip
    all_goals rename_i heq
    all_goals cases heq
    · exact bind_same hargs fun _ => hc.construct _ _
    · exact  (bind_same hargs fun _ => by basic)
    · refine  (bind_same (hx _ _ rfl) fun v => ?_)
      generalize List.find? _ _ = o
      cases o with
      | none => basic
      | some d =>
        match v with
        | .pv (.int (.ofNat v)) => basic
        | .pv (.int (.negSucc v)) => basic
        | .pv .none | .pv (.bool _) | .pv (.str _) | .pv (.bytes _) | .pv (.enum _ _) | .pv (.list _) | .pv (.dict _) | .pv (.struct _ _) | .pv .stream | .pv .backref
        | .obj _ | .io _ | .file _ | .list _ => basic
    · rename_i h1 h2
      refine  ?_
      split
      all_goals first | (rename_i heq; cases heq; done) | (rename_i heq _; cases heq; done) | skip
      all_goals rename_i heq
      all_goals cases heq
      · exact (h2 _ _ rfl rfl rfl).elim
      · exact bind_same (hf _ _ rfl) fun v => bind_same hargs fun _ => invoke_same hc v _ _
      · rename_i h3 _; exact (h3 _ _ rfl).elim
    · split
      all_goals first | (rename_i heq; cases heq; done) | (rename_i heq _; cases heq; done) | skip
      all_goals rename_i heq
      all_goals cases heq
      all_goals first | basic | skip
      · rename_i h _ _ _; exact (h _ rfl).elim
      · rename_i h _ _; exact (h _ rfl).elim
      · rename_i h _; exact (h _ _ rfl).elim
      · rename_i h _ _; exact (h _ _ rfl).elim
  | .bin op a b =>
    rw [eval, Py.eval]
    exact  (bind_same (eval_same P hc env a) fun x => bind_same (eval_same P hc env b) fun y => by basic)
  | .cmp op a b =>
    rw [eval, Py.eval]
    exact  (bind_same (eval_same P hc env a) fun x => bind_same (eval_same P hc env b) fun y => by basic)
  | .not a => rw [eval, Py.eval]; exact  (bind_same (eval_same P hc env a) fun x => by basic)
  | .and a b =>
    rw [eval, Py.eval]
    exact  (bind_same (eval_same P hc env a) fun x => ite_same (eval_same P hc env b) (by basic))
  | .or a b =>
    rw [eval, Py.eval]
    exact  (bind_same (eval_same P hc env a) fun x => ite_same (by basic) (eval_same P hc env b))
  | .ifExp t a b =>
    rw [eval, Py.eval]
    exact  (bind_same (eval_same P hc env t) fun x => ite_same (eval_same P hc env a) (eval_same P hc env b))
theorem evals_same (P : Program) {c : Calls} {d : Py.Calls} (hc : CallsSame c d) (env : Env) (l : List Expr) : Does (evals P c env l) (Py.evals P d env l) := by
  match l with
  | [] => rw [evals, Py.evals]; basic
  | e :: rest =>
    rw [evals, Py.evals]
    exact bind_same (eval_same P hc env e) fun _ => bind_same (evals_same P hc env rest) fun _ => by basic
end

theorem forLoop_same {body : Env → R Flow} {body' : Env → M Flow} (h : ∀ env, Does (body env) (body' env)) (x : String) :
    ∀ (l : List Val) (env : Env), Does (forLoop body x l env) (Py.forLoop body' x l env)
  | [], env => by rw [forLoop, Py.forLoop]; basic
  | v :: rest, env => by
    rw [forLoop, Py.forLoop]
    refine bind_same (h _) fun f => ?_
    cases f with
    | next env => exact forLoop_same h x rest env
    | brk env => basic
    | ret v => basic

theorem whileLoop_same {c : Env → R Bool} {c' : Env → M Bool} {body : Env → R Flow} {body' : Env → M Flow} (hc : ∀ env, Does (c env) (c' env))
    (h : ∀ env, Does (body env) (body' env)) : ∀ (n : Nat) (env : Env), Does (whileLoop c body n env) (Py.whileLoop c' body' n env)
  | 0, env => by
    rw [whileLoop, Py.whileLoop]
    exact bind_same (hc _) fun t => ite_same (by basic) (by basic)
  | n + 1, env => by
    rw [whileLoop, Py.whileLoop]
    refine bind_same (hc _) fun t => ite_same ?_ (by basic)
    refine bind_same (h _) fun f => ?_
    cases f with
    | next env => exact whileLoop_same hc h n env
    | brk env => basic
    | ret v => basic

mutual
theorem exec_same (P : Program) {c : Calls} {d : Py.Calls} (hc : CallsSame c d) (st : Stmt) (env : Env) : Does (exec P c st env) (Py.exec P d st env) := by
  have he := eval_same P hc
  match st with
  | .assign x e => rw [exec, Py.exec]; exact  (bind_same (he _ _) fun _ => by basic)
  | .setattr o x e =>
    rw [exec, Py.exec]
    refine  (bind_same (he _ _) fun v => bind_same (he _ _) fun w => ?_)
    cases w <;> first | basic | exact bind_same (by basic) fun _ => by basic
  | .expr e =>
    rw [exec.eq_def, Py.exec.eq_def]
    split
    all_goals first | (rename_i heq; cases heq; done) | (rename_i heq _; cases heq; done) | skip
    · rename_i heq
      cases heq
      refine  (bind_same (he _ _) fun v => ?_)
      cases v with
      | obj r =>
        refine bind_same (by basic) fun o => ?_
        generalize List.lookup (α := String) (β := Val) _ _ = w
        cases w with
        | none => basic
        | some w =>
          cases w <;> first | basic | skip
          refine bind_same (he _ _) fun v => bind_same (by basic) fun o => ?_
          generalize List.lookup (α := String) (β := Val) _ _ = w
          cases w with
          | none => basic
          | some w => cases w <;> first | basic | exact bind_same (by basic) fun _ => by basic
      | pv _ | io _ | file _ | list _ => basic
    · rename_i hno heq
      cases heq
      split
      all_goals first | (rename_i heq; cases heq; done) | (rename_i heq _; cases heq; done) | skip
      all_goals rename_i heq
      all_goals cases heq
      · exact absurd rfl (hno _ _ _)
      · exact  (bind_same (he _ _) fun _ => by basic)
  | .if_ t a b =>
    rw [exec, Py.exec]
    exact  (bind_same (he _ _) fun _ => ite_same (execs_same P hc a env) (execs_same P hc b env))
  | .for_ x it body =>
    have hb := execs_same P hc body
    rw [exec, Py.exec]
    refine  (bind_same (he _ _) fun v => ?_)
    cases v <;> first | basic | exact forLoop_same hb _ _ _
  | .while_ t body =>
    have hb := execs_same P hc body
    rw [exec, Py.exec]
    exact  (bind_same (by basic) fun n => whileLoop_same (fun env => bind_same (he _ _) fun _ => by basic) hb _ _)
  | .break_ => rw [exec, Py.exec]; basic
  | .pass_ => rw [exec, Py.exec]; basic
  | .raise_ e =>
    rw [exec.eq_def, Py.exec.eq_def]
    split
    all_goals first | (rename_i heq; cases heq; done) | (rename_i heq _; cases heq; done) | skip
    · rename_i heq
      cases heq
      exact  (bind_same (he _ _) fun _ => bind_same (he _ _) fun _ => bind_same (he _ _) fun _ => by basic)
    · rename_i hno heq
      cases heq
      split
      all_goals first | (rename_i heq; cases heq; done) | (rename_i heq _; cases heq; done) | skip
      all_goals rename_i heq
      all_goals cases heq
      · exact absurd rfl (hno _ _ _ _)
      · basic
  | .return_ e => rw [exec, Py.exec]; exact  (bind_same (he _ _) fun _ => by basic)
theorem execs_same (P : Program) {c : Calls} {d : Py.Calls} (hc : CallsSame c d) (l : List Stmt) (env : Env) : Does (execs P c l env) (Py.execs P d l env) := by
  match l with
  | [] => rw [execs, Py.execs]; basic
  | st :: rest =>
    have h2 := execs_same P hc rest
    rw [execs, Py.execs]
    refine bind_same (exec_same P hc st env) fun f => ?_
    cases f with
    | next env => exact h2 env
    | brk env => basic
    | ret v => basic
end

theorem call_same (P : Program) {c : Calls} {d : Py.Calls} (hc : CallsSame c d) (f : Function) (args : List Val) : Does (call P c f args) (f.call P d args) := by
  unfold call Function.call
  refine bind_same (execs_same P hc _ _) fun f => ?_
  cases f <;> basic

theorem does_discard {p : R α} {m : M α} (h : Does p m) : Does p (Py.discard m) := by
  intro σ
  have h := h σ
  show Alike (p.run σ) (match m.run σ with | .ok a σ' => .ok a σ' | .raise e σ' => .raise e ⟨σ'.heap.take σ.heap.length, σ'.streams⟩)
  revert h
  rcases p.run σ with ⟨a, τ⟩ | ⟨e, τ⟩ <;> rcases m.run σ with ⟨b, υ⟩ | ⟨e', υ⟩
  · exact id
  · exact id
  · exact id
  · rintro ⟨h1, h2, h3⟩
    exact ⟨h1, (List.take_prefix _ _).trans h2, h3⟩

theorem calls_same (P : Program) : ∀ n, CallsSame (calls P n) (Py.calls P n)
  | 0 => ⟨fun _ _ => does_raise _, fun _ _ _ => does_raise _, fun _ _ => does_raise _⟩
  | n + 1 => by
    have ih := calls_same P n
    rw [calls, Py.calls]
    refine ⟨fun cls args => does_discard ?_, fun r m args => ?_, fun r x => ?_⟩
    · dsimp only
      cases P.method cls "__init__" with
      | none => basic
      | some f => exact bind_same (does_new _) fun r => bind_same (call_same P ih f _) fun _ => by basic
    · refine bind_same (does_get _) fun o => ?_
      cases P.method o.cls m with
      | none => basic
      | some f => exact call_same P ih f _
    · refine bind_same (does_get _) fun o => ?_
      cases P.property o.cls x with
      | none => basic
      | some f => exact call_same P ih f _

end Dmr.Py.Threads
