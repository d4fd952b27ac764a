import Verif.Py.Requests
import Verif.Py.ThreadsErase
import Verif.Py.TimeCalls
/-
What the checks of Verif/Py/Requests mean: a program that passes them asks for nothing large.
-/

set_option autoImplicit false

namespace Dmr.Py.Requests

open Threads

variable {α β : Type} {A : Attrs} {L : Nat}

/-- What is known about the value of an expression. -/
structure Kind (A : Attrs) (L : Nat) (e : Expr) (v : Val) : Prop where
  small : Requests.small A e = true → Small v
  nonneg : Requests.nonneg A e = true → Nonneg v
  upto : Requests.upto A e = true → Upto L v
  raw : Requests.raw A e = true → Raw L v
  filed : Requests.filed A e = true → Filed L v
  str : ∀ s, e = .str s → v = .pv (.str s.toList)
  none : e = .none → v = .pv .none
  int : ∀ n, e = .int n → v = .pv (.int n)

theorem Kind.suits {x : String} {e : Expr} {v : Val} (h : Kind A L e v) (hs : Requests.suits A x e = true) : Fact A L x v := by
  simp only [Requests.suits, Bool.and_eq_true, Bool.or_eq_true, Bool.not_eq_true', decide_eq_false_iff_not] at hs
  exact ⟨fun hx => h.small (hs.1.1.resolve_left fun k => k hx), fun hx => h.nonneg (hs.1.2.resolve_left fun k => k hx),
    fun hx => h.raw (hs.2.resolve_left fun k => k hx)⟩

/-- Item by item. -/
inductive Each {α β : Type} (r : α → β → Prop) : List α → List β → Prop where
  | nil : Each r [] []
  | cons {a b l l'} : r a b → Each r l l' → Each r (a :: l) (b :: l')

/-- Calls that ask for nothing large. -/
structure CallsOk (A : Attrs) (L : Nat) (c : Threads.Calls) : Prop where
  construct : ∀ n args, Sure A L Plain (c.construct n args)
  method : ∀ r m args, Sure A L (fun _ => m ∉ reading) (c.method r m args)
  property : ∀ r x, Sure A L (Fact A L x) (c.property r x)

/-- No fact is known about the attribute `value` of a member of an enumeration but that it is not negative. -/
def Attrs.Sane (A : Attrs) : Prop := "value" ∉ A.small

theorem getattr_sure (hA : A.Sane) {c : Threads.Calls} (hc : CallsOk A L c) (v : Val) (x : String) : Sure A L (Fact A L x) (Threads.getattr c v x) := by
  rw [Threads.getattr.eq_def]
  split
  · refine sure_bind (Q := Fine A L) (fun o ho => ho) fun o ho => ?_
    cases h : o.attrs.lookup x with
    | none => exact hc.property _ _
    | some v => exact ho x v h
  · exact ⟨fun h => absurd h hA, fun _ i e => by cases e; exact Int.natCast_nonneg _, fun _ b e => by cases e⟩
  · exact trivial

/-- What is known about the value of a call of a method. -/
def Invoked (L : Nat) (m : String) (args : List Val) (v : Val) : Prop :=
  (m ∈ reading → args = [] → m ∈ ["read_u1", "read_u2be", "read_u2le"] → Small v) ∧
  (m ∈ reading → args = [] → m = "pos" ∨ m = "size" → Nonneg v) ∧ (args = [] → m = "size" → Upto L v) ∧ (m = "read_bytes" → Raw L v)

theorem invoke_sure {c : Threads.Calls} (hc : CallsOk A L c) (v : Val) (m : String) (args : List Val)
    (h1 : m = "read_bytes" → ∃ w, args = [w] ∧ Upto L w) (h2 : m = "read_bits_int_be" → ∃ n, args = [.pv (.int n)] ∧ n ≤ 64) :
    Sure A L (Invoked L m args) (Threads.invoke c v m args) := by
  have ha : ∀ w, Answer L m w → Invoked L m args w := fun w hw =>
    ⟨fun _ _ h => hw.small h, fun _ _ h => hw.nonneg h, fun _ h => hw.size h, fun _ => hw.raw⟩
  rw [Threads.invoke.eq_def]
  split
  · refine (hc.method _ _ _).mono fun w hw => ⟨fun h => absurd h hw, fun h => absurd h hw, fun _ h => ?_, fun h => ?_⟩
    · subst h; exact absurd (by decide) hw
    · subst h; exact absurd (by decide) hw
  · refine ⟨⟨fun h => ?_, fun h => ?_⟩, ha⟩
    · obtain ⟨w, hw, _⟩ := h1 h; cases hw
    · obtain ⟨w, hw, _⟩ := h2 h; cases hw
  · refine ⟨⟨fun h i hi => ?_, fun h i hi => ?_⟩, ha⟩
    · obtain ⟨w, hw, hu⟩ := h1 h
      cases hw; cases hi
      exact hu i rfl
    · obtain ⟨w, hw, hu⟩ := h2 h
      cases hw; cases hi
      exact hu
  · split
    · split
      · exact ⟨fun h => absurd h (by decide), fun h => absurd h (by decide), fun _ h => absurd h (by decide), fun h => absurd h (by decide)⟩
      · exact trivial
    · exact trivial
  · exact trivial

theorem plain_none : Plain (.pv .none) := ⟨fun _ e => (by cases e), fun _ e => (by cases e), fun _ e => (by cases e)⟩

/-- What is known about the value of a builtin. -/
def Built (A : Attrs) (L : Nat) (g : String) (args : List Val) (v : Val) : Prop :=
  (∀ w s, g = "getattr" → args = [w, .pv (.str s), .pv .none] → Fact A L (String.ofList s) v) ∧
  (∀ w, g = "BytesIO" → args = [w] → Raw L w → Filed L v)

theorem builtin_sure (g : String) (args : List Val) (h : g = "KaitaiStream" → ∃ w, args = [w] ∧ Filed L w) :
    Sure A L (Built A L g args) (Threads.builtin g args) := by
  unfold Threads.builtin
  split
  case h_5 => exact ⟨fun _ _ e => absurd e (by decide), fun w _ e hr b hb => by cases e; cases hb; exact hr _ rfl⟩
  case h_6 =>
    refine ⟨?_, fun n => ?_⟩
    · obtain ⟨w, hw, hf⟩ := h rfl
      cases hw
      exact hf _ rfl
    · exact ⟨fun _ _ e => absurd e (by decide), fun _ e => absurd e (by decide)⟩
  case h_7 => exact fun o _ => ⟨fun _ _ e => absurd e (by decide), fun _ e => absurd e (by decide)⟩
  case h_8 =>
    refine fun o ho => ⟨fun w _ _ e => ?_, fun _ e => absurd e (by decide)⟩
    cases e
    rename_i s _
    show Fact A L _ ((o.attrs.lookup (String.ofList s)).getD _)
    cases hl : o.attrs.lookup (String.ofList s) with
    | none => exact plain_none.fact
    | some v => exact ho _ _ hl
  case h_9 => exact trivial
  all_goals exact ⟨fun _ _ e => absurd e (by decide), fun _ e => absurd e (by decide)⟩

/-- The value of one or another. -/
theorem kind_other {e : Expr} {v : Val} (h1 : Requests.small A e = false) (h2 : Requests.nonneg A e = false) (h3 : Requests.upto A e = false)
    (h4 : Requests.raw A e = false) (h5 : Requests.filed A e = false) (h6 : ∀ s, e ≠ .str s) (h7 : e ≠ .none) (h8 : ∀ n, e ≠ .int n) : Kind A L e v :=
  ⟨fun h => by simp [h1] at h, fun h => by simp [h2] at h, fun h => by simp [h3] at h, fun h => by simp [h4] at h,
    fun h => by simp [h5] at h, fun s h => absurd h (h6 s), fun h => absurd h h7, fun n h => absurd h (h8 n)⟩


/-- The facts about a call. -/
theorem kind_call {f : Expr} {args : List Expr} {v : Val} (h1 : callSmall A f args = true → Small v) (h2 : callNonneg A f args = true → Nonneg v)
    (h3 : callSize f args = true → Upto L v) (h4 : callRaw f = true → Raw L v) (h5 : Requests.filed A (.call f args) = true → Filed L v) :
    Kind A L (.call f args) v :=
  ⟨fun h => h1 (by simpa [Requests.small] using h), fun h => h2 (by simpa [Requests.nonneg] using h), fun h => by
    simp only [Requests.upto, Bool.or_eq_true] at h
    exact h.elim h3 fun h => (h1 h).upto, fun h => h4 (by simpa [Requests.raw] using h), h5, fun _ h => (by cases h), fun h => (by cases h), fun _ h => (by cases h)⟩

theorem sure_still {Q : Val → Prop} {m : M Val} (h : ∀ v σ, m.run ⟨[], []⟩ = .ok v σ → Q v) : Sure A L Q (still m) := by
  unfold still
  cases hm : m.run ⟨[], []⟩ with
  | ok v σ => exact h v σ hm
  | raise e σ => exact trivial

theorem add_nonneg_of {x y v : Val} {σ τ : State} (h : (BinOp.add.apply x y).run σ = .ok v τ) (hx : Nonneg x) (hy : Nonneg y) : Nonneg v := by
  rw [BinOp.apply.eq_def] at h
  split at h
  all_goals first | (rename_i heq; cases heq; done) | (rename_i heq _; cases heq; done) | (rename_i heq _ _; cases heq; done) | skip
  · cases h; intro i hi; cases hi; have := hx _ rfl; have := hy _ rfl; omega
  · cases h; intro i hi; cases hi
  · cases h

theorem sub_upto_of {x y v : Val} {σ τ : State} (h : (BinOp.sub.apply x y).run σ = .ok v τ) (hx : Upto L x) (hy : Nonneg y) : Upto L v := by
  rw [BinOp.apply.eq_def] at h
  split at h
  all_goals first | (rename_i heq; cases heq; done) | (rename_i heq _; cases heq; done) | (rename_i heq _ _; cases heq; done) | skip
  · cases h; intro i hi; cases hi; have := hx _ rfl; have := hy _ rfl; omega
  · cases h

theorem cmp_plain {op : CmpOp} {x y v : Val} {σ τ : State} (h : (op.apply x y).run σ = .ok v τ) : Plain v := by
  rw [CmpOp.apply.eq_def] at h
  split at h <;> cases h <;> exact ⟨fun _ e => (by cases e), fun _ e => (by cases e), fun _ e => (by cases e)⟩


theorem Plain.kind {e : Expr} {v : Val} (h : Plain v) (h1 : ∀ s, e ≠ .str s) (h2 : e ≠ .none) (h3 : ∀ n, e ≠ .int n) : Kind A L e v :=
  ⟨fun _ i e => absurd e (h.1 i), fun _ i e => absurd e (h.1 i), fun _ i e => absurd e (h.1 i), fun _ b e => absurd e (h.2.1 b),
    fun _ b e => absurd e (h.2.2 b), fun s e => absurd e (h1 s), fun e => absurd e h2, fun n e => absurd e (h3 n)⟩

theorem callSmall_attr {e : Expr} {m : String} {args : List Expr} (h : callSmall A (.attr e m) args = true) : args = [] ∧ m ∈ ["read_u1", "read_u2be", "read_u2le"] := by
  cases args with
  | nil => exact ⟨rfl, of_decide_eq_true h⟩
  | cons a l => rw [callSmall] at h <;> first | (cases h; done) | (intros; rename_i h _; cases h; done)

theorem callNonneg_attr {e : Expr} {m : String} {args : List Expr} (h : callNonneg A (.attr e m) args = true) :
    args = [] ∧ m ∈ ["read_u1", "read_u2be", "read_u2le", "pos", "size"] := by
  cases args with
  | nil => exact ⟨rfl, of_decide_eq_true h⟩
  | cons a l => rw [callNonneg] at h <;> first | (cases h; done) | (intros; rename_i h _; cases h; done)

theorem callSize_attr {e : Expr} {m : String} {args : List Expr} (h : callSize (.attr e m) args = true) : args = [] ∧ m = "size" := by
  cases args with
  | nil => exact ⟨rfl, of_decide_eq_true h⟩
  | cons a l => cases h

/-- A plain value, by its form. -/
macro "plain" : tactic => `(tactic| exact ⟨fun _ e => (by cases e), fun _ e => (by cases e), fun _ e => (by cases e)⟩)
/-- The expression is of another form. -/
macro "form" : tactic => `(tactic| first | rfl | (intro h; cases h; done) | (intro _ h; cases h; done))

mutual
theorem eval_sure (P : Program) {c : Threads.Calls} (hA : A.Sane) (hc : CallsOk A L c) (env : Env) (e : Expr) (hf : fits A e = true) :
    Sure A L (Kind A L e) (Threads.eval P c env e) := by
  match e with
  | .none => rw [Threads.eval]; exact sure_pure ⟨fun h => (by cases h), fun h => (by cases h), fun h => (by cases h), fun h => (by cases h), fun h => (by cases h), fun _ h => (by cases h), fun _ => rfl, fun _ h => (by cases h)⟩
  | .bool b => rw [Threads.eval]; exact sure_pure (Plain.kind (by plain) (by form) (by form) (by form))
  | .int n =>
    rw [Threads.eval]
    refine sure_pure ⟨fun h i hi => ?_, fun h i hi => ?_, fun h i hi => ?_, fun h => (by cases h), fun h => (by cases h), fun _ h => (by cases h), fun h => (by cases h), fun n h => (by cases h; rfl)⟩
    · cases hi; simpa [Requests.small] using h
    · cases hi; simpa [Requests.nonneg] using h
    · cases hi; simp [Requests.upto, Requests.small] at h; omega
  | .str s =>
    rw [Threads.eval]
    exact sure_pure ⟨fun h => (by cases h), fun h => (by cases h), fun h => (by cases h), fun h => (by cases h), fun h => (by cases h), fun _ h => (by cases h; rfl), fun h => (by cases h), fun _ h => (by cases h)⟩
  | .bytes b => rw [Threads.eval]; exact sure_pure (kind_other (by form) (by form) (by form) (by form) (by form) (by form) (by form) (by form))
  | .emptyList => rw [Threads.eval]; exact sure_pure (Plain.kind (by plain) (by form) (by form) (by form))
  | .name x =>
    rw [Threads.eval]
    cases env.lookup x with
    | none => exact trivial
    | some v => exact sure_pure (kind_other (by form) (by form) (by form) (by form) (by form) (by form) (by form) (by form))
  | .global _ | .cls _ | .enum _ => rw [Threads.eval]; exact trivial
  | .attr e x =>
    rw [fits] at hf
    have ih := eval_sure P hA hc env e hf
    have hk : ∀ v, Fact A L x v → Kind A L (.attr e x) v := fun v h =>
      ⟨fun k => h.small (by simpa [Requests.small] using k), fun k => h.nonneg (by simpa [Requests.nonneg] using k),
        fun k => (h.small (by simpa [Requests.upto, Requests.small] using k)).upto, fun k => h.raw (by simpa [Requests.raw] using k), fun h => (by cases h), fun _ h => (by cases h), fun h => (by cases h), fun _ h => (by cases h)⟩
    rw [Threads.eval.eq_def]
    split
    all_goals first | (rename_i heq; cases heq; done) | (rename_i heq _; cases heq; done) | skip
    all_goals rename_i heq
    all_goals cases heq
    · rename_i e
      cases P.enums.find? (fun d => d.qualified == e) with
      | none => exact trivial
      | some d =>
        dsimp only
        cases d.members.lookup x with
        | none => exact trivial
        | some v => exact sure_pure (Plain.kind (by plain) (by form) (by form) (by form))
    · exact sure_bind ih fun v _ => (getattr_sure hA hc v x).mono hk
  | .call f args =>
    have hargs : allFit A args = true := by
      revert hf
      match f with
      | .attr e m => rw [fits]; simp only [Bool.and_eq_true]; exact fun h => h.1.2
      | .global g => rw [fits]; simp only [Bool.and_eq_true]; exact fun h => h.1
      | .none | .bool _ | .int _ | .str _ | .bytes _ | .emptyList | .name _ | .cls _ | .enum _ | .call _ _ | .bin _ _ _ | .cmp _ _ _
      | .not _ | .and _ _ | .or _ _ | .ifExp _ _ _ => rw [fits] <;> first | exact id | (intro _ _ h; cases h; done) | (intro _ h; cases h; done)
    have iha := evals_sure P hA hc env args hargs
    have hfn : ∀ e m, f = .attr e m → Sure A L (Kind A L e) (Threads.eval P c env e) := by
      match f with
      | .attr e m =>
        rw [fits] at hf
        simp only [Bool.and_eq_true] at hf
        have := eval_sure P hA hc env e hf.1.1
        intro e' m' h; cases h; exact this
      | .none | .bool _ | .int _ | .str _ | .bytes _ | .emptyList | .name _ | .global _ | .cls _ | .enum _ | .call _ _ | .bin _ _ _ | .cmp _ _ _
      | .not _ | .and _ _ | .or _ _ | .ifExp _ _ _ => intro e' m' h; cases h
    have hx : ∀ a x, args = [a, x] → Sure A L (Kind A L x) (Threads.eval P c env x) := by
      match args with
      | [a, x] =>
        rw [allFit, allFit, allFit] at hargs
        simp only [Bool.and_eq_true] at hargs
        have := eval_sure P hA hc env x hargs.2.1
        intro a' x' h; cases h; exact this
      | [] | [_] | _ :: _ :: _ :: _ => intro a' x' h; cases h
    rw [Threads.eval.eq_def]
    split
    all_goals first | (rename_i heq; cases heq; done) | (rename_i heq _; cases heq; done) | skip
    all_goals rename_i heq
    all_goals cases heq
    · exact sure_bind iha fun _ _ => (hc.construct _ _).mono fun v hv => hv.kind (by form) (by form) (by form)
    · rename_i g
      rw [fits] at hf
      simp only [Bool.and_eq_true] at hf
      refine sure_bind iha fun vs hvs => (builtin_sure g vs fun hg => ?_).mono fun v hv => ?_
      · have h2 := hf.2
        unfold builtinFits at h2
        simp only [hg, ne_eq, not_true_eq_false, decide_false, Bool.false_or] at h2
        match args, vs, hvs with
        | [e], [w], .cons hw .nil => exact ⟨w, rfl, hw.filed h2⟩
      · have hg : ∀ y, g = "getattr" → (∃ a, args = [a, .str y, .none]) → Fact A L y v := by
          rintro y rfl ⟨a, rfl⟩
          match vs, hvs with
          | [w, w1, w2], .cons _ (.cons h1 (.cons h2 .nil)) =>
            have := hv.1 w y.toList rfl (by rw [h1.str _ rfl, h2.none rfl])
            rwa [String.ofList_toList] at this
        refine kind_call (fun h => ?_) (fun h => ?_) (fun h => by cases h) (fun h => by cases h) fun h => ?_
        · unfold callSmall at h
          split at h
          · rename_i heq; cases heq
          · rename_i heq; cases heq
            simp only [Bool.and_eq_true, decide_eq_true_eq] at h
            exact (hg _ h.1 ⟨_, rfl⟩).small h.2
          · cases h
        · unfold callNonneg at h
          split at h
          · rename_i heq; cases heq
          · rename_i heq; cases heq
            simp only [Bool.and_eq_true, decide_eq_true_eq] at h
            exact (hg _ h.1 ⟨_, rfl⟩).nonneg h.2
          · cases h
        · unfold Requests.filed at h
          split at h
          · rename_i heq
            cases heq
            simp only [Bool.and_eq_true, decide_eq_true_eq] at h
            match vs, hvs with
            | [w], .cons hw .nil => exact hv.2 w h.1 rfl (hw.raw h.2)
          · cases h
    · refine sure_bind (hx _ _ rfl) fun v _ => ?_
      generalize List.find? _ _ = o
      have hk : ∀ (e x : Expr) (w : Val), Kind A L (.call (.attr (.global "KaitaiStream") "resolve_enum") [e, x]) w := fun e x w =>
        kind_call (fun h => by simp [callSmall] at h) (fun h => by simp [callNonneg] at h) (fun h => by simp [callSize] at h)
          (fun h => by simp [callRaw] at h) (fun h => by cases h)
      cases o with
      | none => exact trivial
      | some d =>
        match v with
        | .pv (.int (.ofNat v)) => exact sure_pure (hk _ _ _)
        | .pv (.int (.negSucc v)) => exact trivial
        | .pv .none | .pv (.bool _) | .pv (.str _) | .pv (.bytes _) | .pv (.enum _ _) | .pv (.list _) | .pv (.dict _) | .pv (.struct _ _) | .pv .stream | .pv .backref
        | .obj _ | .io _ | .file _ | .list _ => exact trivial
    · rename_i e m _
      rw [fits] at hf
      simp only [Bool.and_eq_true] at hf
      obtain ⟨_, hm⟩ := hf
      unfold callFits at hm
      simp only [Bool.and_eq_true] at hm
      refine sure_bind (hfn _ _ rfl) fun v _ => sure_bind iha fun vs hvs => (invoke_sure hc v m vs (fun h => ?_) fun h => ?_).mono fun w hw => ?_
      · have h3 := hm.1
        simp only [h, ne_eq, not_true_eq_false, decide_false, Bool.false_or] at h3
        match args, vs, hvs with
        | [e], [w], .cons hw .nil => exact ⟨w, rfl, hw.upto h3⟩
      · have h3 := hm.2
        simp only [h, ne_eq, not_true_eq_false, decide_false, Bool.false_or] at h3
        match args, vs, hvs with
        | [.int n], [w], .cons hw .nil => exact ⟨n, by rw [hw.int n rfl], by simpa using h3⟩
      · have hnil : args = [] → vs = [] := by
          rintro rfl
          cases hvs
          rfl
        have hr : ∀ {l : List String}, m ∈ l → (∀ x ∈ l, x ∈ reading) → m ∈ reading := fun h k => k _ h
        refine kind_call (fun h => ?_) (fun h => ?_) (fun h => ?_) (fun h => ?_) fun h => by cases h
        · obtain ⟨rfl, k⟩ := callSmall_attr h
          exact hw.1 (hr k (by decide)) (hnil rfl) k
        · obtain ⟨rfl, k⟩ := callNonneg_attr h
          have h' : m ∈ ["read_u1", "read_u2be", "read_u2le"] ∨ (m = "pos" ∨ m = "size") := by
            simp only [List.mem_cons, List.not_mem_nil, or_false] at k ⊢
            rcases k with k | k | k | k | k <;> simp [k]
          rcases h' with h' | h'
          · exact (hw.1 (hr k (by decide)) (hnil rfl) h').nonneg
          · exact hw.2.1 (hr k (by decide)) (hnil rfl) h'
        · obtain ⟨rfl, k⟩ := callSize_attr h
          exact hw.2.2.1 (hnil rfl) k
        · unfold callRaw at h
          rw [decide_eq_true_eq] at h
          exact hw.2.2.2 h
    · exact trivial
  | .bin op a b =>
    rw [fits] at hf
    simp only [Bool.and_eq_true] at hf
    rw [Threads.eval]
    refine sure_bind (eval_sure P hA hc env a hf.1) fun x hx => sure_bind (eval_sure P hA hc env b hf.2) fun y hy => sure_still fun v σ hv => ?_
    refine ⟨fun h => (by cases h), fun h => ?_, fun h => ?_, fun h => (by cases h), fun h => (by cases h), fun _ h => (by cases h), fun h => (by cases h), fun _ h => (by cases h)⟩
    · cases op <;> simp only [Requests.nonneg, Bool.and_eq_true, Bool.false_eq_true] at h
      exact add_nonneg_of hv (hx.nonneg h.1) (hy.nonneg h.2)
    · cases op <;> simp only [Requests.upto, Requests.small, Bool.and_eq_true, Bool.false_eq_true] at h
      exact sub_upto_of hv (hx.upto h.1) (hy.nonneg h.2)
  | .cmp op a b =>
    rw [fits] at hf
    simp only [Bool.and_eq_true] at hf
    rw [Threads.eval]
    exact sure_bind (eval_sure P hA hc env a hf.1) fun x hx => sure_bind (eval_sure P hA hc env b hf.2) fun y hy => sure_still fun v σ hv =>
      (cmp_plain hv).kind (by form) (by form) (by form)
  | .not a =>
    rw [fits] at hf
    rw [Threads.eval]
    exact sure_bind (eval_sure P hA hc env a hf) fun x _ => sure_pure (Plain.kind (by plain) (by form) (by form) (by form))
  | .and a b =>
    rw [fits] at hf
    simp only [Bool.and_eq_true] at hf
    have ho : ∀ v, Kind A L (.and a b) v := fun v => kind_other (by form) (by form) (by form) (by form) (by form) (by form) (by form) (by form)
    rw [Threads.eval]
    refine sure_bind (eval_sure P hA hc env a hf.1) fun x _ => ?_
    split
    · exact (eval_sure P hA hc env b hf.2).mono fun v _ => ho v
    · exact sure_pure (ho x)
  | .or a b =>
    rw [fits] at hf
    simp only [Bool.and_eq_true] at hf
    have ho : ∀ v, Kind A L (.or a b) v := fun v => kind_other (by form) (by form) (by form) (by form) (by form) (by form) (by form) (by form)
    rw [Threads.eval]
    refine sure_bind (eval_sure P hA hc env a hf.1) fun x _ => ?_
    split
    · exact sure_pure (ho x)
    · exact (eval_sure P hA hc env b hf.2).mono fun v _ => ho v
  | .ifExp t a b =>
    rw [fits] at hf
    simp only [Bool.and_eq_true] at hf
    rw [Threads.eval]
    have hk : ∀ (e : Expr), (∀ h : (Requests.small A a && Requests.small A b) = true, Requests.small A e = true) → True := fun _ _ => trivial
    refine sure_bind (eval_sure P hA hc env t hf.1.1) fun x _ => ?_
    split
    · refine (eval_sure P hA hc env a hf.1.2).mono fun v hv => ⟨fun h => ?_, fun h => ?_, fun h => ?_, fun h => (by cases h), fun h => (by cases h), fun _ h => (by cases h), fun h => (by cases h), fun _ h => (by cases h)⟩
      · simp only [Requests.small, Bool.and_eq_true] at h; exact hv.small h.1
      · simp only [Requests.nonneg, Bool.and_eq_true] at h; exact hv.nonneg h.1
      · simp only [Requests.upto, Requests.small, Bool.and_eq_true] at h; exact (hv.small h.1).upto
    · refine (eval_sure P hA hc env b hf.2).mono fun v hv => ⟨fun h => ?_, fun h => ?_, fun h => ?_, fun h => (by cases h), fun h => (by cases h), fun _ h => (by cases h), fun h => (by cases h), fun _ h => (by cases h)⟩
      · simp only [Requests.small, Bool.and_eq_true] at h; exact hv.small h.2
      · simp only [Requests.nonneg, Bool.and_eq_true] at h; exact hv.nonneg h.2
      · simp only [Requests.upto, Requests.small, Bool.and_eq_true] at h; exact (hv.small h.2).upto
theorem evals_sure (P : Program) {c : Threads.Calls} (hA : A.Sane) (hc : CallsOk A L c) (env : Env) (l : List Expr) (hf : allFit A l = true) :
    Sure A L (Each (Kind A L) l) (Threads.evals P c env l) := by
  match l with
  | [] => rw [Threads.evals]; exact sure_pure .nil
  | e :: rest =>
    rw [allFit] at hf
    simp only [Bool.and_eq_true] at hf
    rw [Threads.evals]
    exact sure_bind (eval_sure P hA hc env e hf.1) fun _ h1 => sure_bind (evals_sure P hA hc env rest hf.2) fun _ h2 => sure_pure (.cons h1 h2)
end


/-- What is known about how a piece of a function ends: what a property `x` returns suits. -/
def Ends (A : Attrs) (L : Nat) (x : String) (f : Flow) : Prop := ∀ v, f = .ret v → Fact A L x v

theorem ends_next {x : String} {env : Env} : Ends A L x (.next env) := fun _ h => by cases h
theorem ends_brk {x : String} {env : Env} : Ends A L x (.brk env) := fun _ h => by cases h

theorem forLoop_sure {x : String} {body : Env → R Flow} (h : ∀ env, Sure A L (Ends A L x) (body env)) (y : String) :
    ∀ (l : List Val) (env : Env), Sure A L (Ends A L x) (Threads.forLoop body y l env)
  | [], env => by rw [Threads.forLoop]; exact sure_pure ends_next
  | v :: rest, env => by
    rw [Threads.forLoop]
    refine sure_bind (h _) fun f hf => ?_
    cases f with
    | next env => exact forLoop_sure h y rest env
    | brk env => exact sure_pure ends_next
    | ret v => exact sure_pure hf

theorem whileLoop_sure {x : String} {c : Env → R Bool} {body : Env → R Flow} (hc : ∀ env, Sure A L (fun _ => True) (c env))
    (h : ∀ env, Sure A L (Ends A L x) (body env)) : ∀ (n : Nat) (env : Env), Sure A L (Ends A L x) (Threads.whileLoop c body n env)
  | 0, env => by
    rw [Threads.whileLoop]
    refine sure_bind (hc _) fun t _ => ?_
    split
    · exact trivial
    · exact sure_pure ends_next
  | n + 1, env => by
    rw [Threads.whileLoop]
    refine sure_bind (hc _) fun t _ => ?_
    split
    · refine sure_bind (h _) fun f hf => ?_
      cases f with
      | next env => exact whileLoop_sure hc h n env
      | brk env => exact sure_pure ends_next
      | ret v => exact sure_pure hf
    · exact sure_pure ends_next

theorem loopBound_sure (env : Env) : Sure A L (fun _ => True) (Threads.loopBound env) := by
  unfold Threads.loopBound
  generalize List.lookup (α := String) (β := Val) _ _ = w
  match w with
  | some (.obj r) =>
    refine sure_bind (Q := fun _ => True) (fun o _ => trivial) fun o _ => ?_
    generalize List.lookup (α := String) (β := Val) _ _ = w
    match w with
    | some (.io k) => exact sure_bind (Q := fun _ => True) (fun l => trivial) fun _ _ => sure_pure trivial
    | none | some (.obj _) | some (.pv _) | some (.list _) | some (.file _) => exact trivial
  | none | some (.io _) | some (.pv _) | some (.list _) | some (.file _) => exact trivial

theorem plain_list (l : List Val) : Plain (.list l) := by plain

theorem get_sure (r : Nat) : Sure A L (Fine A L) (R.get r) := fun _ h => h
theorem put_sure {r : Nat} {x : String} {v : Val} (h : Fact A L x v) : Sure A L (fun _ => True) (R.put r x v) := ⟨h, trivial⟩

mutual
theorem exec_sure (P : Program) {c : Threads.Calls} (hA : A.Sane) (hc : CallsOk A L c) {x : String} (st : Stmt) (env : Env) (hf : stmtFits A x st = true) :
    Sure A L (Ends A L x) (Threads.exec P c st env) := by
  have he := eval_sure P hA hc
  match st with
  | .assign y e =>
    rw [stmtFits] at hf
    rw [Threads.exec]; exact sure_bind (he _ _ hf) fun _ _ => sure_pure ends_next
  | .setattr o y e =>
    rw [stmtFits] at hf
    simp only [Bool.and_eq_true] at hf
    rw [Threads.exec]
    refine sure_bind (he _ _ hf.1.2) fun v hv => sure_bind (he _ _ hf.1.1) fun w _ => ?_
    cases w <;> first | exact trivial | exact sure_bind (put_sure (hv.suits hf.2)) fun _ _ => sure_pure ends_next
  | .expr e =>
    rw [stmtFits] at hf
    rw [Threads.exec.eq_def]
    split
    all_goals first | (rename_i heq; cases heq; done) | (rename_i heq _; cases heq; done) | skip
    · rename_i heq
      cases heq
      rw [fits, fits, allFit, allFit] at hf
      simp only [Bool.and_eq_true] at hf
      refine sure_bind (he _ _ hf.1.1) fun v _ => ?_
      cases v with
      | obj r =>
        refine sure_bind (get_sure _) fun o _ => ?_
        generalize List.lookup (α := String) (β := Val) _ _ = w
        cases w with
        | none => exact trivial
        | some w =>
          cases w <;> first | exact trivial | skip
          refine sure_bind (he _ _ hf.1.2.1) fun v _ => sure_bind (get_sure _) fun o _ => ?_
          generalize List.lookup (α := String) (β := Val) _ _ = w
          cases w with
          | none => exact trivial
          | some w => cases w <;> first | exact trivial | exact sure_bind (put_sure (plain_list _).fact) fun _ _ => sure_pure ends_next
      | pv _ | io _ | file _ | list _ => exact trivial
    · rename_i heq
      cases heq
      exact sure_bind (he _ _ hf) fun _ _ => sure_pure ends_next
  | .if_ t a b =>
    rw [stmtFits] at hf
    simp only [Bool.and_eq_true] at hf
    rw [Threads.exec]
    refine sure_bind (he _ _ hf.1.1) fun _ _ => ?_
    split
    · exact execs_sure P hA hc a env hf.1.2
    · exact execs_sure P hA hc b env hf.2
  | .for_ y it body =>
    rw [stmtFits] at hf
    simp only [Bool.and_eq_true] at hf
    have hb := fun env => execs_sure P hA hc body env hf.2
    rw [Threads.exec]
    refine sure_bind (he _ _ hf.1) fun v _ => ?_
    cases v <;> first | exact trivial | exact forLoop_sure hb _ _ _
  | .while_ t body =>
    rw [stmtFits] at hf
    simp only [Bool.and_eq_true] at hf
    have hb := fun env => execs_sure P hA hc body env hf.2
    rw [Threads.exec]
    exact sure_bind (loopBound_sure _) fun n _ => whileLoop_sure (fun env => sure_bind (he _ _ hf.1) fun _ _ => sure_pure trivial) hb _ _
  | .break_ => rw [Threads.exec]; exact sure_pure ends_brk
  | .pass_ => rw [Threads.exec]; exact sure_pure ends_next
  | .raise_ e =>
    rw [stmtFits] at hf
    rw [Threads.exec.eq_def]
    split
    all_goals first | (rename_i heq; cases heq; done) | (rename_i heq _; cases heq; done) | skip
    · rename_i heq
      cases heq
      rw [fits, fits, allFit, allFit, allFit] at hf
      simp only [Bool.and_eq_true] at hf
      rw [allFit] at hf
      simp only [Bool.and_eq_true] at hf
      exact sure_bind (he _ _ hf.1.2.1) fun _ _ => sure_bind (he _ _ hf.1.2.2.1) fun _ _ => sure_bind (he _ _ hf.1.2.2.2.1) fun _ _ => trivial
    · exact trivial
  | .return_ e =>
    rw [stmtFits] at hf
    simp only [Bool.and_eq_true] at hf
    rw [Threads.exec]
    exact sure_bind (he _ _ hf.1) fun v hv => sure_pure fun w h => by cases h; exact hv.suits hf.2
theorem execs_sure (P : Program) {c : Threads.Calls} (hA : A.Sane) (hc : CallsOk A L c) {x : String} (l : List Stmt) (env : Env) (hf : stmtsFit A x l = true) :
    Sure A L (Ends A L x) (Threads.execs P c l env) := by
  match l with
  | [] => rw [Threads.execs]; exact sure_pure ends_next
  | st :: rest =>
    rw [stmtsFit] at hf
    simp only [Bool.and_eq_true] at hf
    have h2 := fun env => execs_sure P hA hc rest env hf.2
    rw [Threads.execs]
    refine sure_bind (exec_sure P hA hc st env hf.1) fun f h => ?_
    cases f with
    | next env => exact h2 env
    | brk env => exact sure_pure ends_brk
    | ret v => exact sure_pure h
end

theorem call_sure (P : Program) {c : Threads.Calls} (hA : A.Sane) (hc : CallsOk A L c) {x : String} (f : Function) (args : List Val) (hf : stmtsFit A x f.body = true) :
    Sure A L (Fact A L x) (Threads.call P c f args) := by
  unfold Threads.call
  refine sure_bind (execs_sure P hA hc _ _ hf) fun f h => ?_
  cases f with
  | ret v => exact sure_pure (h v rfl)
  | next _ => exact sure_pure plain_none.fact
  | brk _ => exact sure_pure plain_none.fact

theorem calls_sure (P : Program) (hA : A.Sane) (hP : ∀ d ∈ P.classes, classFits A d = true) : ∀ n, CallsOk A L (Threads.calls P n)
  | 0 => ⟨fun _ _ => trivial, fun _ _ _ => trivial, fun _ _ => trivial⟩
  | n + 1 => by
    have ih := calls_sure P hA hP n
    have hm : ∀ {cls m f}, P.method cls m = some f → stmtsFit A "" f.body = true ∧ m ∉ reading := by
      intro cls m f h
      obtain ⟨d, hd, _, hmem⟩ := Time.method_mem h
      have := hP d hd
      unfold classFits at this
      rw [Bool.and_eq_true] at this
      have := List.all_eq_true.1 this.1 _ hmem
      rw [Bool.and_eq_true, decide_eq_true_eq] at this
      exact this
    have hp : ∀ {cls x f}, P.property cls x = some f → stmtsFit A x f.body = true := by
      intro cls x f h
      obtain ⟨d, hd, _, hmem⟩ := Time.property_mem h
      have := hP d hd
      unfold classFits at this
      rw [Bool.and_eq_true] at this
      exact List.all_eq_true.1 this.2 _ hmem
    rw [Threads.calls]
    refine ⟨fun cls args => ?_, fun r m args => ?_, fun r x => ?_⟩
    · dsimp only
      cases h : P.method cls "__init__" with
      | none => exact trivial
      | some f => exact sure_bind (Q := fun _ => True) (fun _ => trivial) fun r _ => sure_bind (call_sure P hA ih f _ (hm h).1) fun _ _ => sure_pure (by plain)
    · refine sure_bind (get_sure _) fun o _ => ?_
      cases h : P.method o.cls m with
      | none => exact trivial
      | some f => exact (call_sure P hA ih f _ (hm h).1).mono fun _ _ => (hm h).2
    · refine sure_bind (get_sure _) fun o _ => ?_
      cases h : P.property o.cls x with
      | none => exact trivial
      | some f => exact call_sure P hA ih f _ (hp h)

end Dmr.Py.Requests
