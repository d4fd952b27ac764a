import Verif.Py.ThreadsSim
/-
The interpreter does not care where things are in the memory.
-/

set_option autoImplicit false

namespace Dmr.Py.Threads

variable {α β : Type}

theorem corrs_range (ρ : Ren) : ∀ l : List Nat, Corrs ρ (l.map fun (i : Nat) => .pv (.int i)) (l.map fun (i : Nat) => .pv (.int i))
  | [] => .nil
  | _ :: l => .cons (.pv _) (corrs_range ρ l)

theorem sim_getattr {c : Calls} (hc : CallsSim c) {ρ : Ren} {v w : Val} (h : Corr ρ v w) (x : String) : Sim Corr ρ (getattr c v x) (getattr c w x) := by
  cases h with
  | obj h =>
    rw [getattr, getattr]
    refine Sim.bind (sim_get h) fun τ o p l hp => ?_
    have := hp.attrs.lookup x
    revert this
    generalize List.lookup (α := String) (β := Val) _ _ = v
    generalize List.lookup (α := String) (β := Val) _ _ = w
    intro this
    cases this with
    | none => exact hc.property _ _ _ _ (prefix_get l.1 h)
    | some h => exact sim_pure h
  | pv v =>
    rw [getattr.eq_def]
    split
    · rename_i h; cases h
    · exact sim_pure (.pv _)
    · exact .raise _
  | file b => rw [getattr.eq_def]; exact .raise _
  | io h => rw [getattr.eq_def, getattr.eq_def]; exact .raise _
  | list h => rw [getattr.eq_def, getattr.eq_def]; exact .raise _

theorem sim_invoke {c : Calls} (hc : CallsSim c) {ρ : Ren} {v w : Val} (h : Corr ρ v w) (m : String) {a b : List Val} (ha : Corrs ρ a b) :
    Sim Corr ρ (invoke c v m a) (invoke c w m b) := by
  cases h with
  | obj h => rw [invoke, invoke]; exact hc.method _ _ _ _ _ _ h ha
  | io h =>
    cases ha with
    | nil => rw [invoke, invoke]; exact sim_use h _ _
    | cons h1 hs =>
      cases hs with
      | nil =>
        cases h1 with
        | pv a => rw [invoke, invoke]; exact sim_use h _ _
        | _ => rw [invoke.eq_def, invoke.eq_def]; exact .raise _
      | cons h2 hs => rw [invoke.eq_def, invoke.eq_def]; cases h1 <;> exact .raise _
  | pv v =>
    have bad : ∀ b : List Val, (∀ x, b ≠ [.pv x]) → invoke c (.pv v) m b = .raise .attribute := by
      intro b hb
      rw [invoke.eq_def]
      split
      · rename_i h; cases h
      · rename_i h; cases h
      · rename_i h; cases h
      · exact absurd rfl (hb _)
      · rfl
    by_cases h : ∃ x, a = [.pv x]
    · obtain ⟨x, rfl⟩ := h
      cases ha with
      | cons h1 hs =>
        cases hs
        cases h1
        rw [invoke.eq_def]
        split
        · rename_i h; cases h
        · rename_i h; cases h
        · rename_i h _; cases h
        · split
          · split
            · exact sim_pure (.pv _)
            · exact .raise _
          · exact .raise _
        · exact .raise _
    · rw [bad a fun x e => h ⟨x, e⟩, bad b]
      · exact .raise _
      · rintro x rfl
        cases ha with
        | cons h1 hs =>
          cases hs
          cases h1
          exact h ⟨_, rfl⟩
  | file b => rw [invoke.eq_def]; exact .raise _
  | list h => rw [invoke.eq_def, invoke.eq_def]; exact .raise _

theorem sim_builtin {ρ : Ren} (g : String) {a b : List Val} (h : Corrs ρ a b) : Sim Corr ρ (builtin g a) (builtin g b) := by
  rw [builtin.eq_def]
  split
  · cases h with | cons h1 hs => cases hs; cases h1; exact sim_pure (.pv _)
  · cases h with | cons h1 hs => cases hs; cases h1; exact sim_pure (.pv _)
  · cases h with | cons h1 hs => cases hs; cases h1; exact sim_pure (.pv _)
  · cases h with | cons h1 hs => cases hs; cases h1; exact sim_pure (.list (corrs_range ρ _))
  · cases h with | cons h1 hs => cases hs; cases h1; exact sim_pure (.file _)
  · cases h with
    | cons h1 hs => cases hs; cases h1; exact Sim.bind (sim_open ρ _) fun τ a b l h => sim_pure (.io h)
  · cases h with
    | cons h1 hs =>
      cases hs with
      | cons h2 hs =>
        cases hs; cases h2
        cases h1 with
        | obj h1 =>
          rw [builtin]
          refine Sim.bind (sim_get h1) fun τ o p l hp => sim_pure ?_
          generalize hv : List.lookup (α := String) (β := Val) _ o.attrs = v
          generalize hw : List.lookup (α := String) (β := Val) _ p.attrs = w
          have := hp.attrs.lookup (String.ofList ‹_›)
          rw [hv, hw] at this
          cases this <;> exact .pv _
  · cases h with
    | cons h1 hs =>
      cases hs with
      | cons h2 hs =>
        cases hs with
        | cons h3 hs =>
          cases hs; cases h2
          cases h1 with
          | obj h1 =>
            rw [builtin]
            refine Sim.bind (sim_get h1) fun τ o p l hp => sim_pure ?_
            generalize hv : List.lookup (α := String) (β := Val) _ o.attrs = v
            generalize hw : List.lookup (α := String) (β := Val) _ p.attrs = w
            have := hp.attrs.lookup (String.ofList ‹_›)
            rw [hv, hw] at this
            cases this with
            | none => exact h3.mono l
            | some h => exact h
  · rename_i n1 n2 n3 n4 n5 n6 n7 n8
    rw [builtin.eq_def]
    split
    · cases h with | cons h1 hs => cases hs; cases h1; exact (n1 _ rfl rfl).elim
    · cases h with | cons h1 hs => cases hs; cases h1; exact (n2 _ rfl rfl).elim
    · cases h with | cons h1 hs => cases hs; cases h1; exact (n3 _ rfl rfl).elim
    · cases h with | cons h1 hs => cases hs; cases h1; exact (n4 _ rfl rfl).elim
    · cases h with | cons h1 hs => cases hs; cases h1; exact (n5 _ rfl rfl).elim
    · cases h with | cons h1 hs => cases hs; cases h1; exact (n6 _ rfl rfl).elim
    · cases h with
      | cons h1 hs =>
        cases hs with
        | cons h2 hs => cases hs; cases h2; cases h1; exact (n7 _ _ rfl rfl).elim
    · cases h with
      | cons h1 hs =>
        cases hs with
        | cons h2 hs =>
          cases hs with
          | cons h3 hs => cases hs; cases h2; cases h1; exact (n8 _ _ _ rfl rfl).elim
    · exact .raise _

mutual
theorem sim_eval (P : Program) {c : Calls} (hc : CallsSim c) {ρ : Ren} {env env' : Env} (henv : Dict ρ env env') (e : Expr) :
    Sim Corr ρ (eval P c env e) (eval P c env' e) := by
  match e with
  | .none | .bool _ | .int _ | .str _ | .bytes _ => rw [eval, eval]; exact sim_pure (.pv _)
  | .emptyList => rw [eval, eval]; exact sim_pure (.list .nil)
  | .name x =>
    rw [eval, eval]
    have := henv.lookup x
    revert this
    generalize List.lookup (α := String) (β := Val) _ _ = v
    generalize List.lookup (α := String) (β := Val) _ _ = w
    intro this
    cases this with
    | none => exact .raise _
    | some h => exact sim_pure h
  | .global _ | .cls _ | .enum _ => rw [eval, eval]; exact .raise _
  | .attr e x =>
    have ih := sim_eval P hc henv e
    rw [eval.eq_def, eval.eq_def]
    split
    all_goals first | (rename_i heq; cases heq; done) | (rename_i heq _; cases heq; done) | skip
    all_goals rename_i heq
    all_goals cases heq
    · split
      · split
        · exact sim_pure (.pv _)
        · exact .raise _
      · exact .raise _
    · rename_i h
      exact Sim.bind ih fun τ v w l hv => sim_getattr hc hv x
  | .call f args =>
    have hargs := fun (τ : Ren) (l : ρ.Le τ) => sim_evals P hc (henv.mono l) args
    have hf : ∀ e m, f = .attr e m → Sim Corr ρ (eval P c env e) (eval P c env' e) := by
      match f with
      | .attr e m => have := sim_eval P hc henv e; intro e' m' h; cases h; exact this
      | .none | .bool _ | .int _ | .str _ | .bytes _ | .emptyList | .name _ | .global _ | .cls _ | .enum _ | .call _ _ | .bin _ _ _ | .cmp _ _ _
      | .not _ | .and _ _ | .or _ _ | .ifExp _ _ _ => intro e' m' h; cases h
    have hx : ∀ a x, args = [a, x] → Sim Corr ρ (eval P c env x) (eval P c env' x) := by
      match args with
      | [a, x] => have := sim_eval P hc henv x; intro a' x' h; cases h; exact this
      | [] | [_] | _ :: _ :: _ :: _ => intro a' x' h; cases h
    rw [eval.eq_def, eval.eq_def]
    split
    all_goals first | (rename_i heq; cases heq; done) | (rename_i heq _; cases heq; done) | skip
    all_goals rename_i heq
    all_goals cases heq
    · exact Sim.bind (hargs ρ (Ren.Le.refl ρ)) fun τ a b l h => hc.construct _ _ _ _ h
    · exact Sim.bind (hargs ρ (Ren.Le.refl ρ)) fun τ a b l h => sim_builtin _ h
    · refine Sim.bind (hx _ _ rfl) fun τ v w l h => ?_
      generalize List.find? _ _ = o
      cases o with
      | none => exact .raise _
      | some d =>
        cases h with
        | pv v =>
          cases v with
          | int n => cases n <;> first | exact sim_pure (.pv _) | exact .raise _
          | _ => exact .raise _
        | _ => exact .raise _
    · exact Sim.bind (hf _ _ rfl) fun τ v w l h => Sim.bind (hargs τ l) fun τ' a b l' h' => sim_invoke hc (h.mono l') _ h'
    · exact .raise _
  | .bin op a b =>
    have hb := fun (τ : Ren) (l : ρ.Le τ) => sim_eval P hc (henv.mono l) b
    rw [eval, eval]
    exact Sim.bind (sim_eval P hc henv a) fun τ x x' l h => Sim.bind (hb τ l) fun τ' y y' l' h' => sim_binOp op (h.mono l') h'
  | .cmp op a b =>
    have hb := fun (τ : Ren) (l : ρ.Le τ) => sim_eval P hc (henv.mono l) b
    rw [eval, eval]
    exact Sim.bind (sim_eval P hc henv a) fun τ x x' l h => Sim.bind (hb τ l) fun τ' y y' l' h' => sim_cmpOp op (h.mono l') h'
  | .not a =>
    rw [eval, eval]
    refine Sim.bind (sim_eval P hc henv a) fun τ x x' l h => ?_
    rw [truthy_corr h]
    exact sim_pure (.pv _)
  | .and a b =>
    have hb := fun (τ : Ren) (l : ρ.Le τ) => sim_eval P hc (henv.mono l) b
    rw [eval, eval]
    exact Sim.bind (sim_eval P hc henv a) fun τ x x' l h => sim_ite (by rw [truthy_corr h]) (hb τ l) (sim_pure h)
  | .or a b =>
    have hb := fun (τ : Ren) (l : ρ.Le τ) => sim_eval P hc (henv.mono l) b
    rw [eval, eval]
    exact Sim.bind (sim_eval P hc henv a) fun τ x x' l h => sim_ite (by rw [truthy_corr h]) (sim_pure h) (hb τ l)
  | .ifExp t a b =>
    have ha := fun (τ : Ren) (l : ρ.Le τ) => sim_eval P hc (henv.mono l) a
    have hb := fun (τ : Ren) (l : ρ.Le τ) => sim_eval P hc (henv.mono l) b
    rw [eval, eval]
    exact Sim.bind (sim_eval P hc henv t) fun τ x x' l h => sim_ite (by rw [truthy_corr h]) (ha τ l) (hb τ l)
theorem sim_evals (P : Program) {c : Calls} (hc : CallsSim c) {ρ : Ren} {env env' : Env} (henv : Dict ρ env env') (l : List Expr) :
    Sim Corrs ρ (evals P c env l) (evals P c env' l) := by
  match l with
  | [] => rw [evals, evals]; exact sim_pure .nil
  | e :: rest =>
    have hb := fun (τ : Ren) (l : ρ.Le τ) => sim_evals P hc (henv.mono l) rest
    rw [evals, evals]
    exact Sim.bind (sim_eval P hc henv e) fun τ v w l h => Sim.bind (hb τ l) fun τ' a b l' h' => sim_pure (.cons (h.mono l') h')
end

end Dmr.Py.Threads
