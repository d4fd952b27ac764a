import Verif.Py.Time
/-
Counting does not change what a program does: without the counter, the semantics of Verif/Py/Time is that of Verif/Py/Semantics.
-/

set_option autoImplicit false

namespace Dmr.Py.Time

variable {α β : Type}

theorem result_pure (a : α) : (pure a : T α).result = pure a := rfl
theorem result_free (m : M α) : (free m).result = m := rfl
theorem result_bind (m : T α) (f : α → T β) : (m >>= f).result = m.result >>= fun a => (f a).result := by
  funext σ
  show (match m σ with | (t, .ok a σ') => (t + (f a σ').1, (f a σ').2) | (t, .raise e σ') => (t, .raise e σ')).2 = Out.bind (m σ).2 fun a σ' => (f a σ').2
  rcases m σ with ⟨t, ⟨a, σ'⟩ | ⟨e, σ'⟩⟩ <;> rfl
theorem result_tick (f : Unit → T β) : (tick >>= f).result = (f ()).result := rfl
theorem result_ite {c : Prop} [Decidable c] (a b : T α) : (if c then a else b).result = if c then a.result else b.result := by split <;> rfl

/-- Calls without the counter. -/
def Calls.erase (c : Calls) : Py.Calls := ⟨fun n a => (c.construct n a).result, fun r m a => (c.method r m a).result, fun r x => (c.property r x).result⟩

/-- What follows is the same. -/
theorem bind_same {m : T α} {m' : M α} {f : α → T β} {f' : α → M β} (hm : m.result = m') (hf : ∀ a, (f a).result = f' a) : (m >>= f).result = m' >>= f' := by
  subst hm
  rw [result_bind]
  congr 1
  exact funext hf

theorem tick_same {f : Unit → T β} {m : M β} (h : (f ()).result = m) : (tick >>= f).result = m := by rw [result_tick]; exact h

theorem ite_same {c : Prop} [Decidable c] {a b : T α} {a' b' : M α} (ha : a.result = a') (hb : b.result = b') : (if c then a else b).result = if c then a' else b' := by
  rw [result_ite, ha, hb]

theorem getattr_same (c : Calls) (v : Val) (x : String) : (getattr c v x).result = Py.getattr c.erase v x := by
  rw [getattr.eq_def, Py.getattr.eq_def]
  split
  · refine bind_same rfl fun a => ?_
    cases a.attrs.lookup x <;> rfl
  · rfl
  · split
    · simp_all
    · simp_all
    · rfl

theorem invoke_same (c : Calls) (v : Val) (m : String) (args : List Val) : (invoke c v m args).result = Py.invoke c.erase v m args := by
  rw [invoke.eq_def]
  split
  · rfl
  · rfl
  · rename_i b e
    rw [Py.invoke]
    cases codec (String.ofList e) with
    | none => rfl
    | some f => dsimp only; cases f b <;> rfl
  · rw [Py.invoke.eq_def]
    split
    · simp_all
    · simp_all
    · simp_all
    · rfl

mutual
theorem eval_same (P : Program) (c : Calls) (env : Env) (e : Expr) : (eval P c env e).result = Py.eval P c.erase env e := by
  match e with
  | .none | .bool _ | .int _ | .str _ | .bytes _ | .emptyList => rw [eval, Py.eval]; rfl
  | .name x => rw [eval, Py.eval]; refine tick_same ?_; cases env.lookup x <;> rfl
  | .global _ | .cls _ | .enum _ => rw [eval, Py.eval]; rfl
  | .attr e x =>
    have ih := eval_same P c env e
    rw [eval.eq_def, Py.eval.eq_def]
    split
    all_goals first | (rename_i heq; cases heq; done) | (rename_i heq _; cases heq; done) | skip
    all_goals rename_i heq
    all_goals cases heq
    · refine tick_same ?_
      rename_i e
      dsimp only
      cases P.enums.find? (fun d => d.qualified == e) with
      | none => rfl
      | some d => dsimp only; cases d.members.lookup x <;> rfl
    · rename_i h
      refine tick_same ?_
      split
      all_goals first | (rename_i heq; cases heq; done) | (rename_i heq _; cases heq; done) | skip
      all_goals rename_i heq
      all_goals cases heq
      · exact absurd rfl (h _)
      · exact bind_same ih fun v => getattr_same c v x
  | .call f args =>
    have hargs := evals_same P c env args
    have hf : ∀ e m, f = .attr e m → (eval P c env e).result = Py.eval P c.erase env e := by
      match f with
      | .attr e m => have := eval_same P c env e; intro e' m' h; cases h; exact this
      | .none | .bool _ | .int _ | .str _ | .bytes _ | .emptyList | .name _ | .global _ | .cls _ | .enum _ | .call _ _ | .bin _ _ _ | .cmp _ _ _
      | .not _ | .and _ _ | .or _ _ | .ifExp _ _ _ => intro e' m' h; cases h
    have hx : ∀ a x, args = [a, x] → (eval P c env x).result = Py.eval P c.erase env x := by
      match args with
      | [a, x] => have := eval_same P c env x; intro a' x' h; cases h; exact this
      | [] | [_] | _ :: _ :: _ :: _ => intro a' x' h; cases h
    rw [eval.eq_def, Py.eval.eq_def]
    split
    all_goals first | (rename_i heq; cases heq; done) | (rename_i heq _; cases heq; done) | skip
    all_goals rename_i heq
    all_goals cases heq
    · exact tick_same (bind_same hargs fun _ => rfl)
    · exact tick_same (bind_same hargs fun _ => rfl)
    · refine tick_same (bind_same (hx _ _ rfl) fun v => ?_)
      generalize List.find? _ _ = o
      cases o with
      | none => rfl
      | some d =>
        match v with
        | .pv (.int (.ofNat v)) => rfl
        | .pv (.int (.negSucc v)) => rfl
        | .pv .none | .pv (.bool _) | .pv (.str _) | .pv (.bytes _) | .pv (.enum _ _) | .pv (.list _) | .pv (.dict _) | .pv (.struct _ _) | .pv .stream | .pv .backref
        | .obj _ | .io _ | .file _ | .list _ => rfl
    · rename_i h1 h2
      refine tick_same ?_
      split
      all_goals first | (rename_i heq; cases heq; done) | (rename_i heq _; cases heq; done) | skip
      all_goals rename_i heq
      all_goals cases heq
      · exact (h2 _ _ rfl rfl rfl).elim
      · exact bind_same (hf _ _ rfl) fun v => bind_same hargs fun _ => invoke_same c v _ _
      · rename_i h3 _; exact (h3 _ _ rfl).elim
    · split
      all_goals first | (rename_i heq; cases heq; done) | (rename_i heq _; cases heq; done) | skip
      all_goals rename_i heq
      all_goals cases heq
      all_goals first | rfl | skip
      · rename_i h _ _ _; exact (h _ rfl).elim
      · rename_i h _ _; exact (h _ rfl).elim
      · rename_i h _; exact (h _ _ rfl).elim
      · rename_i h _ _; exact (h _ _ rfl).elim
  | .bin op a b =>
    rw [eval, Py.eval]
    exact tick_same (bind_same (eval_same P c env a) fun x => bind_same (eval_same P c env b) fun y => rfl)
  | .cmp op a b =>
    rw [eval, Py.eval]
    exact tick_same (bind_same (eval_same P c env a) fun x => bind_same (eval_same P c env b) fun y => rfl)
  | .not a => rw [eval, Py.eval]; exact tick_same (bind_same (eval_same P c env a) fun x => rfl)
  | .and a b =>
    rw [eval, Py.eval]
    exact tick_same (bind_same (eval_same P c env a) fun x => ite_same (eval_same P c env b) rfl)
  | .or a b =>
    rw [eval, Py.eval]
    exact tick_same (bind_same (eval_same P c env a) fun x => ite_same rfl (eval_same P c env b))
  | .ifExp t a b =>
    rw [eval, Py.eval]
    exact tick_same (bind_same (eval_same P c env t) fun x => ite_same (eval_same P c env a) (eval_same P c env b))
theorem evals_same (P : Program) (c : Calls) (env : Env) (l : List Expr) : (evals P c env l).result = Py.evals P c.erase env l := by
  match l with
  | [] => rw [evals, Py.evals]; rfl
  | e :: rest =>
    rw [evals, Py.evals]
    exact bind_same (eval_same P c env e) fun _ => bind_same (evals_same P c env rest) fun _ => rfl
end

theorem forLoop_same {body : Env → T Flow} {body' : Env → M Flow} (h : ∀ env, (body env).result = body' env) (x : String) :
    ∀ (l : List Val) (env : Env), (forLoop body x l env).result = Py.forLoop body' x l env
  | [], env => by rw [forLoop, Py.forLoop]; rfl
  | v :: rest, env => by
    rw [forLoop, Py.forLoop]
    refine bind_same (h _) fun f => ?_
    cases f with
    | next env => exact forLoop_same h x rest env
    | brk env => rfl
    | ret v => rfl

theorem whileLoop_same {c : Env → T Bool} {c' : Env → M Bool} {body : Env → T Flow} {body' : Env → M Flow} (hc : ∀ env, (c env).result = c' env)
    (h : ∀ env, (body env).result = body' env) : ∀ (n : Nat) (env : Env), (whileLoop c body n env).result = Py.whileLoop c' body' n env
  | 0, env => by
    rw [whileLoop, Py.whileLoop]
    exact bind_same (hc _) fun t => ite_same rfl rfl
  | n + 1, env => by
    rw [whileLoop, Py.whileLoop]
    refine bind_same (hc _) fun t => ite_same ?_ rfl
    refine bind_same (h _) fun f => ?_
    cases f with
    | next env => exact whileLoop_same hc h n env
    | brk env => rfl
    | ret v => rfl

mutual
theorem exec_same (P : Program) (c : Calls) (st : Stmt) (env : Env) : (exec P c st env).result = Py.exec P c.erase st env := by
  have he := eval_same P c
  match st with
  | .assign x e => rw [exec, Py.exec]; exact tick_same (bind_same (he _ _) fun _ => rfl)
  | .setattr o x e =>
    rw [exec, Py.exec]
    refine tick_same (bind_same (he _ _) fun v => bind_same (he _ _) fun w => ?_)
    cases w <;> first | rfl | exact bind_same rfl fun _ => rfl
  | .expr e =>
    rw [exec.eq_def, Py.exec.eq_def]
    split
    all_goals first | (rename_i heq; cases heq; done) | (rename_i heq _; cases heq; done) | skip
    · rename_i heq
      cases heq
      refine tick_same (bind_same (he _ _) fun v => ?_)
      cases v with
      | obj r =>
        refine bind_same rfl fun o => ?_
        generalize List.lookup (α := String) (β := Val) _ _ = w
        cases w with
        | none => rfl
        | some w =>
          cases w <;> first | rfl | skip
          refine bind_same (he _ _) fun v => bind_same rfl fun o => ?_
          generalize List.lookup (α := String) (β := Val) _ _ = w
          cases w with
          | none => rfl
          | some w => cases w <;> first | rfl | exact bind_same rfl fun _ => rfl
      | pv _ | io _ | file _ | list _ => rfl
    · rename_i hno heq
      cases heq
      split
      all_goals first | (rename_i heq; cases heq; done) | (rename_i heq _; cases heq; done) | skip
      all_goals rename_i heq
      all_goals cases heq
      · exact absurd rfl (hno _ _ _)
      · exact tick_same (bind_same (he _ _) fun _ => rfl)
  | .if_ t a b =>
    rw [exec, Py.exec]
    exact tick_same (bind_same (he _ _) fun _ => ite_same (execs_same P c a env) (execs_same P c b env))
  | .for_ x it body =>
    have hb := execs_same P c body
    rw [exec, Py.exec]
    refine tick_same (bind_same (he _ _) fun v => ?_)
    cases v <;> first | rfl | exact forLoop_same hb _ _ _
  | .while_ t body =>
    have hb := execs_same P c body
    rw [exec, Py.exec]
    exact tick_same (bind_same rfl fun n => whileLoop_same (fun env => bind_same (he _ _) fun _ => rfl) hb _ _)
  | .break_ => rw [exec, Py.exec]; rfl
  | .pass_ => rw [exec, Py.exec]; rfl
  | .raise_ e =>
    rw [exec.eq_def, Py.exec.eq_def]
    split
    all_goals first | (rename_i heq; cases heq; done) | (rename_i heq _; cases heq; done) | skip
    · rename_i heq
      cases heq
      exact tick_same (bind_same (he _ _) fun _ => bind_same (he _ _) fun _ => bind_same (he _ _) fun _ => rfl)
    · rename_i hno heq
      cases heq
      split
      all_goals first | (rename_i heq; cases heq; done) | (rename_i heq _; cases heq; done) | skip
      all_goals rename_i heq
      all_goals cases heq
      · exact absurd rfl (hno _ _ _ _)
      · rfl
  | .return_ e => rw [exec, Py.exec]; exact tick_same (bind_same (he _ _) fun _ => rfl)
theorem execs_same (P : Program) (c : Calls) (l : List Stmt) (env : Env) : (execs P c l env).result = Py.execs P c.erase l env := by
  match l with
  | [] => rw [execs, Py.execs]; rfl
  | st :: rest =>
    have h2 := execs_same P c rest
    rw [execs, Py.execs]
    refine bind_same (exec_same P c st env) fun f => ?_
    cases f with
    | next env => exact h2 env
    | brk env => rfl
    | ret v => rfl
end

theorem call_same (P : Program) (c : Calls) (f : Function) (args : List Val) : (call P c f args).result = f.call P c.erase args := by
  unfold call Function.call
  refine bind_same (execs_same ..) fun f => ?_
  cases f <;> rfl

theorem discard_same {m : T α} {m' : M α} (h : m.result = m') : (discard m).result = Py.discard m' := by
  subst h
  funext σ
  unfold discard Py.discard T.result
  dsimp only
  rcases m σ with ⟨t, ⟨a, σ'⟩ | ⟨e, σ'⟩⟩ <;> rfl

theorem calls_same (P : Program) : ∀ n, (calls P n).erase = Py.calls P n
  | 0 => rfl
  | n + 1 => by
    have ih := calls_same P n
    rw [calls, Py.calls, Calls.erase]
    congr 1
    · funext cls args
      refine discard_same ?_
      cases P.method cls "__init__" with
      | none => rfl
      | some f => exact bind_same rfl fun r => bind_same (by rw [call_same, ih]) fun _ => rfl
    · funext r m args
      refine bind_same rfl fun o => ?_
      cases P.method o.cls m with
      | none => rfl
      | some f => dsimp only; rw [call_same, ih]
    · funext r x
      refine bind_same rfl fun o => ?_
      cases P.property o.cls x with
      | none => rfl
      | some f => dsimp only; rw [call_same, ih]

theorem fromBytes_same (P : Program) (n : Nat) (cls : String) (b : Bytes) : (fromBytes P n cls b).2 = Py.fromBytes P n cls b := by
  have h : ((calls P n).construct cls [.io 0]).result = (Py.calls P n).construct cls [.io 0] := by rw [← calls_same]; rfl
  exact congrFun h _

end Dmr.Py.Time
