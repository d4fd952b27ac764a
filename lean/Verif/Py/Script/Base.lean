import Verif.Py.Script.Semantics
import Verif.Py.Script.Source
import Verif.Py.Base
/-
The equations by which it is computed what the scripts do.
-/

set_option autoImplicit false

namespace Dmr.Script

variable {α β γ : Type}

theorem run_bind (m : S α) (f : α → S β) (w : World) : (m >>= f).run w = (m.run w).bind fun a w' => (f a).run w' := rfl
theorem run_pure (a : α) (w : World) : (pure a : S α).run w = .ok a w := rfl
theorem run_raise (e : PyErr) (w : World) : (raise e : S α).run w = .raise e w := rfl
theorem run_stuck (w : World) : (stuck : S α).run w = .stuck := rfl
theorem bind_ok (a : α) (w : World) (f : α → World → Out β) : (Out.ok a w).bind f = f a w := rfl
theorem bind_raise (e : PyErr) (w : World) (f : α → World → Out β) : (Out.raise e w).bind f = .raise e w := rfl
theorem bind_exit (w : World) (f : α → World → Out β) : (Out.exit w).bind f = .exit w := rfl
theorem bind_stuck (f : α → World → Out β) : (Out.stuck : Out α).bind f = .stuck := rfl
theorem bind_bind (o : Out α) (f : α → World → Out β) (g : β → World → Out γ) :
    (o.bind f).bind g = o.bind fun a w => (f a w).bind g := by cases o <;> rfl
theorem run_ite (c : Prop) [Decidable c] (x y : S α) (w : World) : (if c then x else y).run w = if c then x.run w else y.run w := by
  split <;> rfl
theorem bind_ite (c : Prop) [Decidable c] (x y : Out α) (f : α → World → Out β) :
    (if c then x else y).bind f = if c then x.bind f else y.bind f := by split <;> rfl
theorem run_except_ok (a : α) (w : World) : (except (.ok a)).run w = .ok a w := rfl
theorem run_except_error (e : PyErr) (w : World) : (except (.error e) : S α).run w = .raise e w := rfl
theorem run_defined_some (a : α) (w : World) : (defined (some a)).run w = .ok a w := rfl

theorem truth_bool (b : Bool) : truth (.pv (.bool b)) = pure b := rfl
theorem truth_none : truth (.pv .none) = pure false := rfl

theorem decoders_ok {m : Py.M α} {a : α} {w : World} {σ : Py.State} (h : m.run w.memory = .ok a σ) :
    (decoders m).run w = .ok a { w with memory := σ } := by
  simp only [S.run, decoders, h]
theorem decoders_raise {m : Py.M α} {e : PyErr} {w : World} {σ : Py.State} (h : m.run w.memory = .raise e σ) :
    (decoders m).run w = .raise e { w with memory := σ } := by
  simp only [S.run, decoders, h]

/-- Computes what a script does. -/
macro "script_run" "[" ts:Lean.Parser.Tactic.simpLemma,* "]" loc:(Lean.Parser.Tactic.location)? : tactic => `(tactic|
  simp only [run_bind, run_pure, run_raise, bind_ok, bind_raise, bind_exit, bind_bind, run_except_ok, run_except_error, run_defined_some,
    eval, evals, evalKw, exec, execs, Function.call, bindArgs, Option.map_some, upsert, String.reduceEq, if_true, if_false, reduceIte,
    Py.lookup_cons, List.lookup_nil, assignTo, truth_bool, truth_none, Bool.false_eq_true, $ts,*] $(loc)?)

/-- The same, but only what is done between the evaluation of expressions. -/
macro "script_step" "[" ts:Lean.Parser.Tactic.simpLemma,* "]" loc:(Lean.Parser.Tactic.location)? : tactic => `(tactic|
  simp only [run_bind, run_pure, run_raise, bind_ok, bind_raise, bind_exit, bind_bind, run_except_ok, run_except_error, run_defined_some,
    exec, execs, Function.call, bindArgs, Option.map_some, upsert, String.reduceEq, if_true, if_false, reduceIte,
    Py.lookup_cons, List.lookup_nil, assignTo, truth_bool, truth_none, Bool.false_eq_true, $ts,*] $(loc)?)

/-- `f(args, kwargs)` for a function of the scripts. -/
theorem function_eq (n : Nat) (f : String) (d : Function) (h : scripts.functions.lookup f = some d) (args : List V) (kwargs : List (String × V)) :
    (calls scripts (n + 1)).function f args kwargs = d.call (calls scripts n) args kwargs := by
  simp only [calls, h]; rfl

end Dmr.Script
