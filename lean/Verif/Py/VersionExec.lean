import Verif.Py.VersionPeek
import Verif.Py.TimeCalls
/-
The two versions of kaitaistruct do the same for every statement that does not use `seek`, or uses it as in Verif/Py/VersionPeek.
-/

set_option autoImplicit false
set_option linter.unusedSectionVars false

namespace Dmr.Py.Threads.Version

mutual
/-- A statement that does not use `seek` of a stream but to look at another place, and does not use `data` of an object. -/
def stmtFits : Stmt → Bool
  | .assign _ e => plain e
  | .setattr o _ e => plain o && plain e
  | .expr (.call (.attr (.attr o _) "append") [e]) => plain o && plain e
  | .expr e => plain e
  | .if_ t a b => plain t && fits a && fits b
  | .for_ _ it body => plain it && fits body
  | .while_ t body => plain t && fits body
  | .break_ | .pass_ => true
  | .raise_ e => plain e
  | .return_ e => plain e
/-- One after the other. -/
def fits : List Stmt → Bool
  | a :: b :: c :: d :: rest => (isPeek a b c d && fits rest) || (stmtFits a && fits (b :: c :: d :: rest))
  | st :: rest => stmtFits st && fits rest
  | [] => true
end

theorem fits_cases {st : Stmt} {l : List Stmt} (h : fits (st :: l) = true) :
    (stmtFits st = true ∧ fits l = true) ∨ ∃ b c d rest, l = b :: c :: d :: rest ∧ isPeek st b c d = true ∧ fits rest = true := by
  match l with
  | [] => rw [fits, Bool.and_eq_true] at h; exact .inl h; simp
  | [a] => rw [fits, Bool.and_eq_true] at h; exact .inl h; simp
  | [a, b] => rw [fits, Bool.and_eq_true] at h; exact .inl h; simp
  | b :: c :: d :: rest =>
    rw [fits, Bool.or_eq_true, Bool.and_eq_true, Bool.and_eq_true] at h
    rcases h with h | h
    · exact .inr ⟨b, c, d, rest, rfl, h.1, h.2⟩
    · exact .inl h

mutual
theorem same_exec (P : Program) {c : Calls} (hc : CallsSame c) (hb : Bare c) (st : Stmt) (hs : stmtFits st = true) (env : Env) : Same (exec P c st env) := by
  have he := same_eval P hc
  match st with
  | .assign x e => rw [stmtFits] at hs; rw [exec]; exact same_bind (he _ _ hs) fun _ => by basic11
  | .setattr o x e =>
    rw [stmtFits, Bool.and_eq_true] at hs
    rw [exec]
    refine same_bind (he _ _ hs.2) fun v => same_bind (he _ _ hs.1) fun w => ?_
    cases w <;> first | basic11 | exact same_bind (by basic11) fun _ => by basic11
  | .expr e =>
    rw [stmtFits.eq_def] at hs
    rw [exec.eq_def]
    split
    all_goals first | (rename_i heq; cases heq; done) | (rename_i heq _; cases heq; done) | skip
    · rename_i heq
      cases heq
      replace hs : (plain _ && plain _) = true := hs
      rw [Bool.and_eq_true] at hs
      refine same_bind (he _ _ hs.1) fun v => ?_
      cases v with
      | obj r =>
        refine same_bind (by basic11) fun o => ?_
        generalize List.lookup (α := String) (β := Val) _ _ = w
        cases w with
        | none => basic11
        | some w =>
          cases w <;> first | basic11 | skip
          refine same_bind (he _ _ hs.2) fun v => same_bind (by basic11) fun o => ?_
          generalize List.lookup (α := String) (β := Val) _ _ = w
          cases w with
          | none => basic11
          | some w => cases w <;> first | basic11 | exact same_bind (by basic11) fun _ => by basic11
      | pv _ | io _ | file _ | list _ => basic11
    · rename_i hno heq
      cases heq
      have hs : plain e = true := by
        split at hs
        all_goals first | (rename_i heq; cases heq; done) | (rename_i heq _; cases heq; done) | skip
        all_goals rename_i heq
        all_goals cases heq
        · exact absurd rfl (hno _ _ _)
        · exact hs
      exact same_bind (he _ _ hs) fun _ => by basic11
  | .if_ t a b =>
    rw [stmtFits, Bool.and_eq_true, Bool.and_eq_true] at hs
    rw [exec]
    exact same_bind (he _ _ hs.1.1) fun _ => same_ite (same_execs P hc hb a hs.1.2 env) (same_execs P hc hb b hs.2 env)
  | .for_ x it body =>
    rw [stmtFits, Bool.and_eq_true] at hs
    have hbody := same_execs P hc hb body hs.2
    rw [exec]
    refine same_bind (he _ _ hs.1) fun v => ?_
    cases v <;> first | basic11 | exact same_forLoop hbody _ _ _
  | .while_ t body =>
    rw [stmtFits, Bool.and_eq_true] at hs
    have hbody := same_execs P hc hb body hs.2
    rw [exec]
    exact same_bind (by basic11) fun n => same_whileLoop (fun env => same_bind (he _ _ hs.1) fun _ => by basic11) hbody _ _
  | .break_ => rw [exec]; basic11
  | .pass_ => rw [exec]; basic11
  | .raise_ e =>
    rw [stmtFits] at hs
    rw [exec.eq_def]
    split
    all_goals first | (rename_i heq; cases heq; done) | (rename_i heq _; cases heq; done) | skip
    · rename_i heq
      cases heq
      have h3 := (plain_call hs).2.2
      simp only [plains, Bool.and_eq_true] at h3
      exact same_bind (he _ _ h3.1) fun _ => same_bind (he _ _ h3.2.1) fun _ => same_bind (he _ _ h3.2.2.1) fun _ => by basic11
    · basic11
  | .return_ e => rw [stmtFits] at hs; rw [exec]; exact same_bind (he _ _ hs) fun _ => by basic11
theorem same_execs (P : Program) {c : Calls} (hc : CallsSame c) (hb : Bare c) (l : List Stmt) (hs : fits l = true) (env : Env) : Same (execs P c l env) := by
  match l with
  | [] => rw [execs]; basic11
  | st :: rest =>
    rcases fits_cases hs with ⟨h1, h2⟩ | ⟨b, d, e, rest', rfl, h1, h2⟩
    · have h3 := same_execs P hc hb rest h2
      rw [execs]
      refine same_bind (same_exec P hc hb st h1 env) fun f => ?_
      cases f with
      | next env => exact h3 env
      | brk env => basic11
      | ret v => basic11
    · exact same_peek P hb h1 (same_execs P hc hb rest' h2) env
end

theorem same_call (P : Program) {c : Calls} (hc : CallsSame c) (hb : Bare c) (f : Function) (hf : fits f.body = true) (args : List Val) : Same (call P c f args) := by
  unfold call
  refine same_bind (same_execs P hc hb _ hf _) fun f => ?_
  cases f <;> basic11

/-- The functions of the class are like that, except the property `data`; and no method and no property has the name of one of the methods of
streams or of one of the attributes that are used between two calls of `seek`. -/
def classFits (d : ClassDef) : Bool :=
  d.methods.all (fun m => fits m.2.body && (m.1 == "__init__" || m.1 == "_read")) &&
  d.properties.all fun p => (fits p.2.body || p.1 == "data") && !["_io", "_root", "data_packet_format", "_raw__m_data"].contains p.1

theorem fails_bind {α β : Type} {p : R α} {f : α → R β} {e : PyErr} (he : Lost e)
    (h : ∀ σ, (∃ a, p.run σ = .ok a σ ∧ p.run11 σ = .ok a σ ∧ (f a).run σ = .raise e σ ∧ (f a).run11 σ = .raise e σ) ∨ (p.run σ = .raise e σ ∧ p.run11 σ = .raise e σ)) :
    Fails (p >>= f) := by
  refine ⟨e, he, fun σ => ?_⟩
  rw [run_bind, run11_bind]
  rcases h σ with ⟨a, h1, h2, h3, h4⟩ | ⟨h1, h2⟩
  · rw [h1, h2]; exact ⟨h3, h4⟩
  · rw [h1, h2]; exact ⟨rfl, rfl⟩

theorem fails_get {β : Type} (r : Nat) {f : Obj → R β} (hf : ∀ o, f o = R.raise .attribute) : Fails (R.get r >>= f) := by
  refine fails_bind lost_attribute fun σ => ?_
  show (∃ a, ((Py.fetch r).run σ).bind _ = _ ∧ ((Py.fetch r).run σ).bind _ = _ ∧ _) ∨ (((Py.fetch r).run σ).bind _ = _ ∧ ((Py.fetch r).run σ).bind _ = _)
  unfold Py.fetch M.run
  dsimp only
  cases σ.heap[r]? with
  | none => exact .inr ⟨rfl, rfl⟩
  | some o => exact .inl ⟨o, rfl, rfl, by rw [hf]; exact ⟨rfl, rfl⟩⟩

theorem method_fits {P : Program} (hP : ∀ d ∈ P.classes, classFits d = true) {cls m : String} {f : Function} (h : P.method cls m = some f) :
    fits f.body = true ∧ (m = "__init__" ∨ m = "_read") := by
  obtain ⟨d, hd, _, hmem⟩ := Time.method_mem h
  have := hP d hd
  unfold classFits at this
  rw [Bool.and_eq_true] at this
  have := List.all_eq_true.1 this.1 _ hmem
  simp only [Bool.and_eq_true, Bool.or_eq_true, beq_iff_eq] at this
  exact this

theorem property_fits {P : Program} (hP : ∀ d ∈ P.classes, classFits d = true) {cls x : String} {f : Function} (h : P.property cls x = some f) :
    (fits f.body = true ∨ x = "data") ∧ x ∉ ["_io", "_root", "data_packet_format", "_raw__m_data"] := by
  obtain ⟨d, hd, _, hmem⟩ := Time.property_mem h
  have := hP d hd
  unfold classFits at this
  rw [Bool.and_eq_true] at this
  have := List.all_eq_true.1 this.2 _ hmem
  simp only [Bool.and_eq_true, Bool.or_eq_true, beq_iff_eq, Bool.not_eq_true'] at this
  refine ⟨this.1, fun hx => ?_⟩
  have h2 := this.2
  rw [List.contains_iff_mem.2 hx] at h2
  cases h2

theorem calls_bare (P : Program) (hP : ∀ d ∈ P.classes, classFits d = true) : ∀ n, Bare (calls P n)
  | 0 => ⟨fun _ _ _ => ⟨.diverge, lost_diverge, fun _ => ⟨rfl, rfl⟩⟩, fun _ _ _ _ => ⟨.diverge, lost_diverge, fun _ => ⟨rfl, rfl⟩⟩⟩
  | n + 1 => by
    rw [calls]
    refine ⟨fun r x hx => fails_get r fun o => ?_, fun r m args hm => fails_get r fun o => ?_⟩
    · cases h : P.property o.cls x with
      | none => rfl
      | some f => exact absurd hx (property_fits hP h).2
    · cases h : P.method o.cls m with
      | none => rfl
      | some f => rcases (method_fits hP h).2 with rfl | rfl <;> simp at hm

theorem calls_same11 (P : Program) (hP : ∀ d ∈ P.classes, classFits d = true) : ∀ n, CallsSame (calls P n)
  | 0 => ⟨fun _ _ => same_raise _, fun _ _ _ => same_raise _, fun _ _ _ => same_raise _⟩
  | n + 1 => by
    have ih := calls_same11 P hP n
    have hb := calls_bare P hP n
    rw [calls]
    refine ⟨fun cls args => ?_, fun r m args => ?_, fun r x hx => ?_⟩
    · dsimp only
      cases h : P.method cls "__init__" with
      | none => basic11
      | some f => exact same_bind (same_new _) fun r => same_bind (same_call P ih hb f (method_fits hP h).1 _) fun _ => by basic11
    · refine same_bind (same_get _) fun o => ?_
      cases h : P.method o.cls m with
      | none => basic11
      | some f => exact same_call P ih hb f (method_fits hP h).1 _
    · refine same_bind (same_get _) fun o => ?_
      cases h : P.property o.cls x with
      | none => basic11
      | some f => exact same_call P ih hb f ((property_fits hP h).1.resolve_right hx) _

end Dmr.Py.Threads.Version
