import Verif.Py.ThreadsEval
/-
Statements and calls do not care where things are in the memory.
-/

set_option autoImplicit false

namespace Dmr.Py.Threads

variable {α β : Type}

theorem sim_loopBound {ρ : Ren} {env env' : Env} (henv : Dict ρ env env') : Sim (fun _ a b => a = b) ρ (loopBound env) (loopBound env') := by
  unfold loopBound
  have := henv.lookup "self"
  revert this
  generalize List.lookup (α := String) (β := Val) _ _ = v
  generalize List.lookup (α := String) (β := Val) _ _ = w
  intro this
  cases this with
  | none => exact .raise _
  | some h =>
    cases h with
    | obj h =>
      refine Sim.bind (sim_get h) fun τ o p l hp => ?_
      have := hp.attrs.lookup "_io"
      revert this
      generalize List.lookup (α := String) (β := Val) _ _ = v
      generalize List.lookup (α := String) (β := Val) _ _ = w
      intro this
      cases this with
      | none => exact .raise _
      | some h =>
        cases h with
        | io h => exact Sim.bind (sim_length h) fun _ a b _ e => sim_pure (by rw [e])
        | _ => exact .raise _
    | _ => exact .raise _

theorem sim_forLoop {ρ : Ren} {body : Env → R Flow} (hb : ∀ τ env env', ρ.Le τ → Dict τ env env' → Sim FlowCorr τ (body env) (body env')) (x : String) :
    ∀ (τ : Ren) (a b : List Val) (env env' : Env), ρ.Le τ → Corrs τ a b → Dict τ env env' → Sim FlowCorr τ (forLoop body x a env) (forLoop body x b env')
  | _, _, _, env, env', _, .nil, henv => by rw [forLoop, forLoop]; exact sim_pure (.next henv)
  | τ, _, _, env, env', l, .cons h hs, henv => by
    rw [forLoop, forLoop]
    refine Sim.bind (hb τ _ _ l (henv.upsert x h)) fun υ f g l' hf => ?_
    cases hf with
    | next h => exact sim_forLoop hb x υ _ _ _ _ (l.trans l') (hs.mono l') h
    | brk h => exact sim_pure (.next h)
    | ret h => exact sim_pure (.ret h)

theorem sim_whileLoop {ρ : Ren} {c : Env → R Bool} {body : Env → R Flow} (hc : ∀ τ env env', ρ.Le τ → Dict τ env env' → Sim (fun _ a b => a = b) τ (c env) (c env'))
    (hb : ∀ τ env env', ρ.Le τ → Dict τ env env' → Sim FlowCorr τ (body env) (body env')) :
    ∀ (n : Nat) (τ : Ren) (env env' : Env), ρ.Le τ → Dict τ env env' → Sim FlowCorr τ (whileLoop c body n env) (whileLoop c body n env')
  | 0, τ, env, env', l, henv => by
    rw [whileLoop, whileLoop]
    exact Sim.bind (hc τ _ _ l henv) fun υ a b l' e => sim_ite (by rw [e]) (.raise _) (sim_pure (.next (henv.mono l')))
  | n + 1, τ, env, env', l, henv => by
    rw [whileLoop, whileLoop]
    refine Sim.bind (hc τ _ _ l henv) fun υ a b l' e => sim_ite (by rw [e]) ?_ (sim_pure (.next (henv.mono l')))
    refine Sim.bind (hb υ _ _ (l.trans l') (henv.mono l')) fun υ' f g l'' hf => ?_
    cases hf with
    | next h => exact sim_whileLoop hc hb n υ' _ _ ((l.trans l').trans l'') h
    | brk h => exact sim_pure (.next h)
    | ret h => exact sim_pure (.ret h)

mutual
theorem sim_exec (P : Program) {c : Calls} (hc : CallsSim c) (st : Stmt) {ρ : Ren} {env env' : Env} (henv : Dict ρ env env') :
    Sim FlowCorr ρ (exec P c st env) (exec P c st env') := by
  have he : ∀ (e : Expr) (τ : Ren), ρ.Le τ → Sim Corr τ (eval P c env e) (eval P c env' e) := fun e τ l => sim_eval P hc (henv.mono l) e
  have he0 : ∀ (e : Expr), Sim Corr ρ (eval P c env e) (eval P c env' e) := fun e => he e ρ (Ren.Le.refl ρ)
  match st with
  | .assign x e => rw [exec, exec]; exact Sim.bind (he0 e) fun τ v w l h => sim_pure (.next ((henv.mono l).upsert x h))
  | .setattr o x e =>
    rw [exec, exec]
    refine Sim.bind (he0 e) fun τ v w l h => Sim.bind (he o τ l) fun τ' a b l' h' => ?_
    cases h' with
    | obj h' => exact Sim.bind (sim_put h' x (h.mono l')) fun τ'' _ _ l'' _ => sim_pure (.next (henv.mono ((l.trans l').trans l'')))
    | _ => exact .raise _
  | .expr e =>
    rw [exec.eq_def, exec.eq_def]
    split
    all_goals first | (rename_i heq; cases heq; done) | (rename_i heq _; cases heq; done) | skip
    · rename_i heq
      cases heq
      refine Sim.bind (he0 _) fun τ v w l h => ?_
      cases h with
      | obj h =>
        refine Sim.bind (sim_get h) fun τ1 o p l1 hp => ?_
        have := hp.attrs.lookup ‹String›
        revert this
        generalize List.lookup (α := String) (β := Val) _ _ = v
        generalize List.lookup (α := String) (β := Val) _ _ = w
        intro this
        cases this with
        | none => exact .raise _
        | some k =>
          cases k with
          | list k =>
            refine Sim.bind (he _ _ (l.trans l1)) fun τ2 v w l2 hv => ?_
            have h2 := prefix_get (l1.trans l2).1 h
            refine Sim.bind (sim_get h2) fun τ3 o p l3 hp => ?_
            have := hp.attrs.lookup ‹String›
            revert this
            generalize List.lookup (α := String) (β := Val) _ _ = v
            generalize List.lookup (α := String) (β := Val) _ _ = w
            intro this
            cases this with
            | none => exact .raise _
            | some k =>
              cases k with
              | list k =>
                exact Sim.bind (sim_put (prefix_get l3.1 h2) _ (.list (k.append (.cons (hv.mono l3) .nil)))) fun τ4 _ _ l4 _ =>
                  sim_pure (.next (henv.mono ((((l.trans l1).trans l2).trans l3).trans l4)))
              | _ => exact .raise _
          | _ => exact .raise _
      | _ => exact .raise _
    · rename_i hno heq
      cases heq
      split
      all_goals first | (rename_i heq; cases heq; done) | (rename_i heq _; cases heq; done) | skip
      all_goals rename_i heq
      all_goals cases heq
      · exact absurd rfl (hno _ _ _)
      · exact Sim.bind (he0 _) fun τ _ _ l _ => sim_pure (.next (henv.mono l))
  | .if_ t a b =>
    have ha := fun (τ : Ren) (l : ρ.Le τ) => sim_execs P hc a (henv.mono l)
    have hb := fun (τ : Ren) (l : ρ.Le τ) => sim_execs P hc b (henv.mono l)
    rw [exec, exec]
    exact Sim.bind (he0 t) fun τ v w l h => sim_ite (by rw [truthy_corr h]) (ha τ l) (hb τ l)
  | .for_ x it body =>
    have hb := fun (τ : Ren) (e f : Env) (_ : ρ.Le τ) (h : Dict τ e f) => sim_execs P hc body h
    rw [exec, exec]
    refine Sim.bind (he0 it) fun τ v w l h => ?_
    cases h with
    | list h => exact sim_forLoop hb x τ _ _ _ _ l h (henv.mono l)
    | _ => exact .raise _
  | .while_ t body =>
    have hb := fun (τ : Ren) (e f : Env) (_ : ρ.Le τ) (h : Dict τ e f) => sim_execs P hc body h
    rw [exec, exec]
    refine Sim.bind (sim_loopBound henv) fun τ n m l e => ?_
    subst e
    exact sim_whileLoop (fun τ e f _ h => Sim.bind (sim_eval P hc h t) fun _ _ _ _ h => sim_pure (truthy_corr h)) hb n τ _ _ l (henv.mono l)
  | .break_ => rw [exec, exec]; exact sim_pure (.brk henv)
  | .pass_ => rw [exec, exec]; exact sim_pure (.next henv)
  | .raise_ e =>
    rw [exec.eq_def, exec.eq_def]
    split
    all_goals first | (rename_i heq; cases heq; done) | (rename_i heq _; cases heq; done) | skip
    · rename_i heq
      cases heq
      exact Sim.bind (he0 _) fun τ _ _ l _ => Sim.bind (he _ τ l) fun τ1 _ _ l1 _ => Sim.bind (he _ τ1 (l.trans l1)) fun _ _ _ _ _ => .raise _
    · rename_i hno heq
      cases heq
      split
      all_goals first | (rename_i heq; cases heq; done) | (rename_i heq _; cases heq; done) | skip
      all_goals rename_i heq
      all_goals cases heq
      · exact absurd rfl (hno _ _ _ _)
      · exact .raise _
  | .return_ e => rw [exec, exec]; exact Sim.bind (he0 e) fun τ v w l h => sim_pure (.ret h)
theorem sim_execs (P : Program) {c : Calls} (hc : CallsSim c) (l : List Stmt) {ρ : Ren} {env env' : Env} (henv : Dict ρ env env') :
    Sim FlowCorr ρ (execs P c l env) (execs P c l env') := by
  match l with
  | [] => rw [execs, execs]; exact sim_pure (.next henv)
  | st :: rest =>
    have hr := fun (τ : Ren) (e f : Env) (h : Dict τ e f) => sim_execs P hc rest h
    rw [execs, execs]
    refine Sim.bind (sim_exec P hc st henv) fun τ f g l h => ?_
    cases h with
    | next h => exact hr τ _ _ h
    | brk h => exact sim_pure (.brk h)
    | ret h => exact sim_pure (.ret h)
end

theorem sim_call (P : Program) {c : Calls} (hc : CallsSim c) (f : Function) {ρ : Ren} {a b : List Val} (h : Corrs ρ a b) : Sim Corr ρ (call P c f a) (call P c f b) := by
  unfold call
  rw [h.length]
  refine Sim.bind (sim_execs P hc f.body (dict_zip _ (h.append (corrs_none ρ _)))) fun τ u v l hf => ?_
  cases hf with
  | ret h => exact sim_pure h
  | _ => exact sim_pure (.pv _)

theorem sim_calls (P : Program) : ∀ n, CallsSim (calls P n)
  | 0 => ⟨fun _ _ _ _ _ => .raise _, fun _ _ _ _ _ _ _ _ => .raise _, fun _ _ _ _ _ => .raise _⟩
  | n + 1 => by
    have ih := sim_calls P n
    rw [calls]
    refine ⟨fun ρ cls a b h => ?_, fun ρ r s m a b hr h => ?_, fun ρ r s x hr => ?_⟩
    · dsimp only
      cases P.method cls "__init__" with
      | none => exact .raise _
      | some f =>
        exact Sim.bind (sim_new ρ cls) fun τ r s l hr => Sim.bind (sim_call P ih f (.cons (.obj hr) (h.mono l))) fun υ _ _ l' _ => sim_pure (.obj (prefix_get l'.1 hr))
    · refine Sim.bind (sim_get hr) fun τ o p l hp => ?_
      rw [hp.cls]
      cases P.method p.cls m with
      | none => exact .raise _
      | some f => exact sim_call P ih f (.cons (.obj (prefix_get l.1 hr)) (h.mono l))
    · refine Sim.bind (sim_get hr) fun τ o p l hp => ?_
      rw [hp.cls]
      cases P.property p.cls x with
      | none => exact .raise _
      | some f => exact sim_call P ih f (.cons (.obj (prefix_get l.1 hr)) .nil)

end Dmr.Py.Threads
