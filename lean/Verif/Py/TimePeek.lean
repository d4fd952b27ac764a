import Verif.Py.TimeExec
/-
`_pos = self._io.pos(); self._io.seek(e); self.x = e'; self._io.seek(_pos)`: looking at another place of the stream, and back.
-/

set_option autoImplicit false

namespace Dmr.Py.Time

variable {α β : Type}

/-- From a state as `I` says, at most `t` steps, and if it does not raise, to a state as `J` says with such a result. -/
def Keeps (I J : State → Prop) (t : Nat) (Q : α → Prop) (m : T α) : Prop := ∀ σ, I σ → (m.run σ).1 ≤ t ∧ ∀ a τ, (m.run σ).2 = .ok a τ → J τ ∧ Q a

theorem keeps_bind {I J L : State → Prop} {t u : Nat} {Q : α → Prop} {R : β → Prop} {m : T α} {f : α → T β} (hm : Keeps I J t Q m)
    (hf : ∀ a, Q a → Keeps J L u R (f a)) : Keeps I L (t + u) R (m >>= f) := by
  intro σ h
  obtain ⟨h1, h2⟩ := hm σ h
  rw [run_bind]
  rcases hr : m.run σ with ⟨w, ⟨a, τ⟩ | ⟨e, τ⟩⟩
  · rw [hr] at h1 h2
    obtain ⟨h3, h4⟩ := h2 a τ rfl
    obtain ⟨h5, h6⟩ := hf a h4 τ h3
    dsimp only at h1 ⊢
    exact ⟨by omega, h6⟩
  · rw [hr] at h1
    dsimp only at h1 ⊢
    exact ⟨by omega, fun a τ e => by cases e⟩

theorem keeps_tick {I J : State → Prop} {t : Nat} {Q : β → Prop} {f : Unit → T β} (h : Keeps I J t Q (f ())) : Keeps I J (1 + t) Q (tick >>= f) :=
  keeps_bind (J := I) (Q := fun _ => True) (fun σ hσ => ⟨Nat.le_refl _, fun a τ e => by cases e; exact ⟨hσ, trivial⟩⟩) fun _ _ => h

theorem keeps_pure {I : State → Prop} {Q : α → Prop} {a : α} (t : Nat) (h : Q a) : Keeps I I t Q (pure a) := fun σ hσ => ⟨Nat.zero_le _, fun b τ e => by cases e; exact ⟨hσ, h⟩⟩
theorem keeps_raise {I J : State → Prop} {Q : α → Prop} (e : PyErr) (t : Nat) : Keeps I J t Q (free (raise e) : T α) := fun σ hσ => ⟨Nat.zero_le _, fun b τ e => by cases e⟩
theorem keeps_still {I : State → Prop} {Q : α → Prop} {m : M α} (t : Nat) (h : Still m) (hq : ∀ σ a τ, m.run σ = .ok a τ → Q a) : Keeps I I t Q (free m) :=
  fun σ hσ => ⟨Nat.zero_le _, fun a τ e => by cases h σ a τ e; exact ⟨hσ, hq σ a _ e⟩⟩
theorem Keeps.more {I J : State → Prop} {t u : Nat} {Q R : α → Prop} {m : T α} (h : Keeps I J t Q m) (htu : t ≤ u) (hQ : ∀ a, Q a → R a) : Keeps I J u R m :=
  fun σ hσ => ⟨Nat.le_trans (h σ hσ).1 htu, fun a τ e => ⟨((h σ hσ).2 a τ e).1, hQ a ((h σ hσ).2 a τ e).2⟩⟩

/-- The stream of the object `r` is `k`; besides it, the streams are those of `σ₀`, and its bytes are those of `b`. -/
def Spot (σ₀ : State) (r k : Nat) (b : Bytes) (σ : State) : Prop :=
  (∃ o, σ.heap[r]? = some o ∧ o.attrs.lookup "_io" = some (.io k)) ∧ k < σ₀.streams.length ∧ ∃ s, σ.streams = σ₀.streams.set k s ∧ s.buf = b

/-- And the position is `p`. -/
def Back (σ₀ : State) (r k : Nat) (b : Bytes) (p : Nat) (σ : State) : Prop :=
  (∃ o, σ.heap[r]? = some o ∧ o.attrs.lookup "_io" = some (.io k)) ∧ k < σ₀.streams.length ∧ ∃ s, σ.streams = σ₀.streams.set k s ∧ s.buf = b ∧ s.pos = p

/-- A plain value, or that stream. -/
def Tame (k : Nat) (v : Val) : Prop := (∃ p, v = .pv p) ∨ v = .io k

variable {σ₀ : State} {r k : Nat} {b : Bytes}

theorem keeps_onStream {rd : Rd α} (hr : KeepsBytes rd) {f : α → PyVal} (t : Nat) :
    Keeps (Spot σ₀ r k b) (Spot σ₀ r k b) t (Tame k) (free (do return .pv (f (← onStream k rd)))) := by
  rintro σ ⟨h1, hk, s, h2, h3⟩
  refine ⟨Nat.zero_le _, fun a τ e => ?_⟩
  change Out.bind (onStream k rd σ) (fun x σ' => .ok (.pv (f x)) σ') = .ok a τ at e
  unfold onStream after at e
  rw [h2, List.getElem?_set_self hk] at e
  dsimp only at e
  have hb := hr s
  rcases hx : rd s with ⟨_ | x, s'⟩
  · rw [hx] at e; cases e
  · rw [hx] at e hb
    cases e
    exact ⟨⟨h1, hk, s', List.set_set .., hb.trans h3⟩, .inl ⟨_, rfl⟩⟩

theorem keeps_seek (n : Int) (t : Nat) :
    Keeps (Spot σ₀ r k b) (Spot σ₀ r k b) t (Tame k) (free (ioMethod k "seek" [.pv (.int n)])) := by
  rw [ioMethod]
  split
  · exact fun σ hσ => ⟨Nat.zero_le _, fun a τ e => by cases e⟩
  · exact keeps_onStream (rd := seekIo n.toNat) (f := fun _ => .none) (fun _ => rfl) t

theorem keeps_back (p : Nat) (t : Nat) :
    Keeps (Spot σ₀ r k b) (Back σ₀ r k b p) t (fun _ => True) (free (ioMethod k "seek" [.pv (.int (Int.ofNat p))])) := by
  rintro σ ⟨h1, hk, s, h2, h3⟩
  have e : ioMethod k "seek" [.pv (.int (Int.ofNat p))] = (do onStream k (seekIo p); return .pv .none) := by
    rw [ioMethod, if_neg (by simp)]
    rfl
  refine ⟨Nat.zero_le _, fun a τ h => ?_⟩
  rw [e] at h
  change Out.bind (onStream k (seekIo p) σ) (fun x σ' => .ok (.pv .none) σ') = .ok a τ at h
  unfold onStream after at h
  rw [h2, List.getElem?_set_self hk] at h
  cases h
  exact ⟨⟨h1, hk, _, List.set_set .., h3, rfl⟩, trivial⟩

theorem keeps_ioMethod (m : String) (args : List Val) (t : Nat) : Keeps (Spot σ₀ r k b) (Spot σ₀ r k b) t (Tame k) (free (ioMethod k m args)) := by
  unfold ioMethod
  split
  · exact keeps_onStream (rd := readU1) (f := fun n => .int (Int.ofNat n)) (keepsBytes_bind (keepsBytes_bytes _) fun _ => keepsBytes_pure _) t
  · exact keeps_onStream (rd := readU2be) (f := fun n => .int (Int.ofNat n)) (keepsBytes_bind (keepsBytes_bytes _) fun _ => keepsBytes_pure _) t
  · exact keeps_onStream (rd := readU2le) (f := fun n => .int (Int.ofNat n)) (keepsBytes_bind (keepsBytes_bytes _) fun _ => keepsBytes_pure _) t
  · exact keeps_onStream (rd := readU4be) (f := fun n => .int (Int.ofNat n)) (keepsBytes_bind (keepsBytes_bytes _) fun _ => keepsBytes_pure _) t
  · exact keeps_onStream (rd := readU4le) (f := fun n => .int (Int.ofNat n)) (keepsBytes_bind (keepsBytes_bytes _) fun _ => keepsBytes_pure _) t
  · exact keeps_onStream (rd := readS2be) (f := fun n => .int n) (keepsBytes_bind (keepsBytes_bytes _) fun _ => keepsBytes_pure _) t
  · exact keeps_onStream (f := fun n => .int (Int.ofNat n)) (keepsBytes_bits _) t
  · exact keeps_onStream (f := fun b => .bytes b) (keepsBytes_bytesInt _) t
  · exact keeps_onStream (f := fun b => .bytes b) keepsBytes_full t
  · exact keeps_onStream (f := fun _ => .none) keepsBytes_align t
  · exact keeps_onStream (rd := isEof) (f := fun b => .bool b) (fun _ => rfl) t
  · exact keeps_onStream (rd := posIo) (f := fun n => .int (Int.ofNat n)) (fun _ => rfl) t
  · exact keeps_onStream (rd := sizeIo) (f := fun n => .int (Int.ofNat n)) (fun _ => rfl) t
  · have := keeps_seek (σ₀ := σ₀) (r := r) (k := k) (b := b) (by assumption) t
    rw [ioMethod] at this
    exact this
  · exact keeps_raise _ _

theorem keeps_invoke (c : Calls) {v : Val} (hv : Tame k v) (m : String) (args : List Val) (t : Nat) :
    Keeps (Spot σ₀ r k b) (Spot σ₀ r k b) t (Tame k) (invoke c v m args) := by
  unfold invoke
  split
  · rcases hv with ⟨p, h⟩ | h <;> cases h
  · rcases hv with ⟨p, h⟩ | h
    · cases h
    · cases h; exact keeps_ioMethod _ _ _
  · split
    · split
      · exact keeps_pure _ (.inl ⟨_, rfl⟩)
      · exact keeps_raise _ _
    · exact keeps_raise _ _
  · exact keeps_raise _ _

mutual
/-- Expressions that only read the stream `self._io`: the number of their steps. -/
def quiet : Expr → Option Nat
  | .int _ | .str _ | .global _ | .enum _ => some 1
  | .attr (.name x) y => if x = "self" ∧ y = "_io" then some 2 else none
  | .call (.attr e _) args =>
    match quiet e, quiets args with
    | some m, some n => some (1 + (m + n))
    | _, _ => none
  | .bin _ a b =>
    match quiet a, quiet b with
    | some m, some n => some (1 + (m + n))
    | _, _ => none
  | _ => none
/-- All of them. -/
def quiets : List Expr → Option Nat
  | [] => some 0
  | e :: l =>
    match quiet e, quiets l with
    | some m, some n => some (m + n)
    | _, _ => none
end

theorem keeps_io (c : Calls) (P : Program) {env : Env} (hs : env.lookup "self" = some (.obj r)) :
    Keeps (Spot σ₀ r k b) (Spot σ₀ r k b) 2 (fun v => v = .io k) (eval P c env (.attr (.name "self") "_io")) := by
  rw [eval]
  · rw [eval, hs]
    rintro σ h
    obtain ⟨⟨o, ho, hl⟩, hk, s, h2, h3⟩ := h
    rw [run_tick, run_bind, run_tick]
    have e : (getattr c (.obj r) "_io").run σ = (0, .ok (.io k) σ) := by
      rw [getattr, run_bind]
      have : (free (fetch r)).run σ = (0, .ok o σ) := by
        show (0, fetch r σ) = _
        unfold fetch
        rw [ho]
      rw [this]
      dsimp only
      rw [hl]
      rfl
    dsimp only [T.run, pure] at e ⊢
    rw [e]
    refine ⟨Nat.le_refl _, fun a τ h => ?_⟩
    cases h
    exact ⟨⟨⟨o, ho, hl⟩, hk, s, h2, h3⟩, rfl⟩
  · intro _ h; cases h

mutual
theorem keeps_quiet (c : Calls) (P : Program) {env : Env} (hs : env.lookup "self" = some (.obj r)) (e : Expr) (n : Nat)
    (h : quiet e = some n) : Keeps (Spot σ₀ r k b) (Spot σ₀ r k b) n (Tame k) (eval P c env e) := by
  match e with
  | .int _ | .str _ => cases h; rw [eval]; exact keeps_tick (t := 0) (keeps_pure 0 (Or.inl ⟨_, rfl⟩))
  | .global _ | .enum _ => cases h; rw [eval]; exact keeps_tick (t := 0) (keeps_raise _ 0)
  | .none | .bool _ | .bytes _ | .emptyList | .name _ | .cls _ | .cmp _ _ _ | .not _ | .and _ _ | .or _ _ | .ifExp _ _ _ => rw [quiet] at h; cases h; all_goals simp
  | .attr e x =>
    cases e
    case name y =>
      rw [quiet] at h
      split at h
      · rename_i hxy
        obtain ⟨rfl, rfl⟩ := hxy
        cases h
        exact (keeps_io c P hs).more (Nat.le_refl _) fun a ha => .inr ha
      · cases h
    all_goals (unfold quiet at h; cases h)
  | .call f args =>
    match f with
    | .attr e m =>
      rw [quiet] at h
      split at h
      · rename_i n1 n2 h1 h2
        cases h
        have he := keeps_quiet c P hs e n1 h1
        have ha := keeps_quiets c P hs args n2 h2
        rw [eval.eq_def]
        split
        all_goals first | (rename_i heq; cases heq; done) | (rename_i heq _; cases heq; done) | skip
        all_goals rename_i heq
        all_goals cases heq
        · rename_i en x
          have h1' : n1 = 1 := by rw [quiet] at h1; cases h1; rfl
          rw [quiets] at h2
          split at h2
          · rename_i m1 m2 h3 h4
            cases h2
            rw [quiets] at h4
            split at h4
            · rename_i m3 m4 h5 h6
              cases h4
              have hx := keeps_quiet c P hs x m3 h5
              refine keeps_tick ((keeps_bind (u := 0) hx fun v hv => ?_).more (by omega) fun _ h => h)
              split
              · exact keeps_pure _ (.inl ⟨_, rfl⟩)
              · exact keeps_raise _ _
            · cases h4
          · cases h2
        · refine keeps_tick (keeps_bind he fun v hv => ?_)
          exact keeps_bind (u := 0) ha fun w _ => keeps_invoke c hv _ _ _
        · exact keeps_tick (keeps_raise _ _)
      · cases h
    | .none | .bool _ | .int _ | .str _ | .bytes _ | .emptyList | .name _ | .global _ | .cls _ | .enum _ | .call _ _ | .bin _ _ _ | .cmp _ _ _
    | .not _ | .and _ _ | .or _ _ | .ifExp _ _ _ => unfold quiet at h; cases h
  | .bin op x y =>
    rw [quiet] at h
    split at h
    · rename_i m n h1 h2
      cases h
      rw [eval]
      refine keeps_tick (keeps_bind (keeps_quiet c P hs x m h1) fun v hv => keeps_bind (u := 0) (keeps_quiet c P hs y n h2) fun w hw => ?_)
      refine keeps_still _ (still_bin _ _ _) fun σ a τ e => ?_
      unfold BinOp.apply at e
      repeat' split at e
      all_goals cases e
      all_goals exact .inl ⟨_, rfl⟩
    · cases h
theorem keeps_quiets (c : Calls) (P : Program) {env : Env} (hs : env.lookup "self" = some (.obj r)) (l : List Expr) (n : Nat)
    (h : quiets l = some n) : Keeps (Spot σ₀ r k b) (Spot σ₀ r k b) n (fun _ => True) (evals P c env l) := by
  match l with
  | [] => cases h; rw [evals]; exact keeps_pure 0 trivial
  | e :: l =>
    rw [quiets] at h
    split at h
    · rename_i m n h1 h2
      cases h
      rw [evals]
      refine keeps_bind (keeps_quiet c P hs e m h1) fun v _ => ?_
      exact keeps_bind (u := 0) (keeps_quiets c P hs l n h2) fun _ _ => keeps_pure 0 trivial
    · cases h
end

/-! ### The four statements -/

/-- `_pos = self._io.pos(); self._io.seek(e); self.x = e'; self._io.seek(_pos)` -/
def peekOf (e : Expr) (x : String) (e' : Expr) : List Stmt :=
  [.assign "_pos" (.call (.attr (.attr (.name "self") "_io") "pos") []), .expr (.call (.attr (.attr (.name "self") "_io") "seek") [e]),
   .setattr (.name "self") x e', .expr (.call (.attr (.attr (.name "self") "_io") "seek") [.name "_pos"])]

theorem keeps_seekStmt (P : Program) (c : Calls) {J : State → Prop} {env : Env} (hs : env.lookup "self" = some (.obj r)) {e : Expr} {n : Nat} {Q : Val → Prop}
    (he : Keeps (Spot σ₀ r k b) (Spot σ₀ r k b) n Q (eval P c env e)) (hJ : ∀ v, Q v → Keeps (Spot σ₀ r k b) J 0 (fun _ => True) (free (ioMethod k "seek" [v]))) :
    Keeps (Spot σ₀ r k b) J (4 + n) (fun f => f = .next env) (exec P c (.expr (.call (.attr (.attr (.name "self") "_io") "seek") [e])) env) := by
  rw [exec]
  · refine (keeps_tick (t := 1 + (2 + (n + 0)) + 0) (keeps_bind (J := J) (Q := fun _ => True) ?_ fun _ _ => keeps_pure (Q := fun f => f = Flow.next env) 0 rfl)).more (by omega) fun _ h => h
    rw [eval]
    · refine keeps_tick (keeps_bind (keeps_io c P hs) fun v hv => ?_)
      subst hv
      rw [evals, evals]
      refine keeps_bind (J := Spot σ₀ r k b) (t := n) (u := 0) (Q := fun l => ∃ v, Q v ∧ l = [v]) ?_ fun w hw => ?_
      · refine keeps_bind (u := 0) he fun v hv => ?_
        exact keeps_bind (t := 0) (u := 0) (keeps_pure (Q := fun l => l = []) 0 rfl) fun l hl => keeps_pure 0 ⟨v, hv, by rw [hl]⟩
      · obtain ⟨v, hv, rfl⟩ := hw
        exact hJ v hv
    · intro _ _ h; cases h
  · intro o x e' h
    have : ("seek" : String) = "append" := by injection h with h; injection h
    simp at this

theorem keeps_peek (P : Program) (c : Calls) {env : Env} (hs : env.lookup "self" = some (.obj r)) {p : Nat} (hp : env.lookup "_pos" = some (.pv (.int (Int.ofNat p))))
    {e e' : Expr} {x : String} (hx : x ≠ "_io") {m n : Nat} (he : quiet e = some m) (he' : quiet e' = some n) :
    Keeps (Spot σ₀ r k b) (Back σ₀ r k b p) (11 + (m + n)) (fun _ => True) (execs P c (peekOf e x e').tail env) := by
  rw [show (peekOf e x e').tail = [_, _, _] from rfl, execs]
  have h1 : Keeps (Spot σ₀ r k b) (Spot σ₀ r k b) (4 + m) (fun f => f = .next env) (exec P c (.expr (.call (.attr (.attr (.name "self") "_io") "seek") [e])) env) := by
    refine keeps_seekStmt P c hs (keeps_quiet c P hs e m he) fun v hv => ?_
    exact (keeps_ioMethod "seek" [v] 0).more (Nat.le_refl _) fun _ _ => trivial
  have h2 : Keeps (Spot σ₀ r k b) (Spot σ₀ r k b) (2 + n) (fun f => f = .next env) (exec P c (.setattr (.name "self") x e') env) := by
    rw [exec]
    refine (keeps_tick (t := n + 1) (keeps_bind (u := 1) (keeps_quiet c P hs e' n he') fun v hv => ?_)).more (by omega) fun _ h => h
    refine keeps_bind (J := Spot σ₀ r k b) (t := 1) (u := 0) (Q := fun w => w = .obj r) ?_ fun w hw => ?_
    · rw [eval, hs]
      exact keeps_tick (t := 0) (keeps_pure 0 rfl)
    · subst hw
      refine keeps_bind (J := Spot σ₀ r k b) (t := 0) (u := 0) (Q := fun _ => True) ?_ fun _ _ => keeps_pure 0 rfl
      rintro σ ⟨⟨o, ho, hl⟩, hk, s, h2, h3⟩
      refine ⟨Nat.zero_le _, fun a τ h => ?_⟩
      change store r x v σ = _ at h
      unfold store at h
      rw [ho] at h
      cases h
      refine ⟨⟨⟨_, List.getElem?_set_self (List.getElem?_eq_some_iff.1 ho).1, ?_⟩, hk, s, h2, h3⟩, trivial⟩
      dsimp only
      rw [lookup_env (Ne.symm hx)]
      exact hl
  have h3 : Keeps (Spot σ₀ r k b) (Back σ₀ r k b p) (4 + 1) (fun f => f = .next env) (exec P c (.expr (.call (.attr (.attr (.name "self") "_io") "seek") [.name "_pos"])) env) := by
    refine keeps_seekStmt P c hs (Q := fun v => v = .pv (.int (Int.ofNat p))) ?_ fun v hv => ?_
    · rw [eval, hp]
      exact keeps_tick (t := 0) (keeps_pure 0 rfl)
    · subst hv
      exact keeps_back p 0
  refine (keeps_bind h1 (u := (2 + n) + 5) fun f hf => ?_).more (by omega) fun _ h => h
  subst hf
  dsimp only
  rw [execs]
  refine keeps_bind h2 fun f hf => ?_
  subst hf
  dsimp only
  rw [execs]
  refine keeps_bind (u := 0) h3 fun f hf => ?_
  subst hf
  dsimp only
  rw [execs]
  exact keeps_pure 0 trivial

theorem left_back {σ τ : State} {s : Stream} (hs : σ.streams[k]? = some s) (h : Back σ r k s.buf s.pos τ) : left τ = left σ := by
  obtain ⟨_, hk, s', h1, h2, h3⟩ := h
  have := left_set σ.streams k s s' hs
  unfold left
  rw [h1, h2, h3] at *
  omega

theorem run_ok {m : T α} {f : α → T β} {σ τ : State} {t : Nat} {a : α} (h : m.run σ = (t, .ok a τ)) :
    (m >>= f).run σ = (t + ((f a).run τ).1, ((f a).run τ).2) := by rw [run_bind, h]
theorem run_raise {m : T α} {f : α → T β} {σ τ : State} {t : Nat} {e : PyErr} (h : m.run σ = (t, .raise e τ)) : (m >>= f).run σ = (t, .raise e τ) := by rw [run_bind, h]
theorem run_pure (a : α) (σ : State) : (pure a : T α).run σ = (0, .ok a σ) := rfl
theorem run_free (m : M α) (σ : State) : (free m).run σ = (0, m.run σ) := rfl

/-- `self._io.pos()` -/
theorem run_pos {K : Known} {c : Calls} (hc : Bounds K c) (P : Program) (env : Env) (σ : State) :
    (∃ r o k s, env.lookup "self" = some (.obj r) ∧ σ.heap[r]? = some o ∧ o.attrs.lookup "_io" = some (.io k) ∧ σ.streams[k]? = some s ∧
      (eval P c env (.call (.attr (.attr (.name "self") "_io") "pos") [])).run σ = (3, .ok (.pv (.int (Int.ofNat s.pos))) σ)) ∨
    ∃ t e τ, t ≤ 3 ∧ (eval P c env (.call (.attr (.attr (.name "self") "_io") "pos") [])).run σ = (t, .raise e τ) := by
  rw [eval, eval, eval, evals]
  rotate_left
  · intro _ h; cases h
  · intro _ _ h; cases h
  have hraise : ∀ (v : Val), (∀ r, v ≠ .obj r) → getattr c v "_io" = free (raise .attribute) := by
    intro v hv
    cases v with
    | obj r => exact absurd rfl (hv r)
    | pv p => cases p <;> rfl
    | _ => rfl
  cases hs : env.lookup "self" with
  | none => exact .inr ⟨3, _, _, Nat.le_refl _, rfl⟩
  | some v =>
    have h0 : (tick >>= fun _ => (pure v : T Val)).run σ = (1, .ok v σ) := rfl
    have h1 : ∀ (w : Nat × Out Val), (getattr c v "_io").run σ = w → (tick >>= fun _ => (tick >>= fun _ => (pure v : T Val)) >>= fun v => getattr c v "_io").run σ = (2 + w.1, w.2) := by
      rintro w rfl
      rw [run_tick, run_ok h0]
      dsimp only
      rw [← Nat.add_assoc]
    have hbad : ∀ e τ, (getattr c v "_io").run σ = (0, .raise e τ) → ∃ t e τ, t ≤ 3 ∧ (tick >>= fun _ => (tick >>= fun _ => (tick >>= fun _ => (pure v : T Val)) >>= fun v => getattr c v "_io") >>= fun v =>
        (pure [] : T (List Val)) >>= fun l => invoke c v "pos" l).run σ = (t, .raise e τ) := by
      intro e τ h
      have := h1 _ h
      exact ⟨3, e, τ, Nat.le_refl _, by rw [run_tick, run_raise this]; rfl⟩
    cases v with
    | obj r =>
      cases ho : σ.heap[r]? with
      | none =>
        refine .inr (hbad .attribute σ ?_)
        rw [getattr, run_raise (t := 0) (e := .attribute) (τ := σ)]
        rw [run_free]
        unfold M.run fetch
        rw [ho]
      | some o =>
        have hf : (free (fetch r)).run σ = (0, .ok o σ) := by
          rw [run_free]
          unfold M.run fetch
          rw [ho]
        cases hl : o.attrs.lookup "_io" with
        | none =>
          obtain ⟨e, τ, h⟩ := hc.io r σ
          refine .inr (hbad e τ ?_)
          rw [getattr, run_ok hf, hl, h]
          rfl
        | some w =>
          have hw : (getattr c (.obj r) "_io").run σ = (0, .ok w σ) := by rw [getattr, run_ok hf, hl]; rfl
          have h2 := h1 _ hw
          have h3 : ∀ (x : Nat × Out Val), (invoke c w "pos" []).run σ = x → (tick >>= fun _ => (tick >>= fun _ => (tick >>= fun _ => (pure (Val.obj r) : T Val)) >>= fun v => getattr c v "_io") >>= fun v =>
              (pure [] : T (List Val)) >>= fun l => invoke c v "pos" l).run σ = (3 + x.1, x.2) := by
            rintro x rfl
            rw [run_tick, run_ok h2, run_ok (run_pure _ σ)]
            dsimp only
            rw [Nat.zero_add, ← Nat.add_assoc]
          have hbad' : ∀ e τ, (invoke c w "pos" []).run σ = (0, .raise e τ) → ∃ t e τ, t ≤ 3 ∧ (tick >>= fun _ => (tick >>= fun _ => (tick >>= fun _ => (pure (Val.obj r) : T Val)) >>= fun v => getattr c v "_io") >>= fun v =>
              (pure [] : T (List Val)) >>= fun l => invoke c v "pos" l).run σ = (t, .raise e τ) := fun e τ h => ⟨3, e, τ, Nat.le_refl _, h3 _ h⟩
          cases w with
          | io k =>
            cases hk : σ.streams[k]? with
            | none =>
              refine .inr (hbad' .attribute σ ?_)
              rw [invoke, run_free, ioMethod]
              show (0, Out.bind (onStream k posIo σ) _) = _
              unfold onStream
              rw [hk]
              rfl
            | some s =>
              refine .inl ⟨r, o, k, s, rfl, ho, hl, hk, h3 (0, .ok (.pv (.int (Int.ofNat s.pos))) σ) ?_⟩
              have hsame : σ.streams.set k s = σ.streams := by
                obtain ⟨hk, e⟩ := List.getElem?_eq_some_iff.1 hk
                rw [← e, List.set_getElem_self]
              rw [invoke, run_free, ioMethod]
              show (0, Out.bind (onStream k posIo σ) _) = _
              unfold onStream after
              rw [hk]
              show (0, Out.ok (Val.pv (.int (Int.ofNat s.pos))) ⟨σ.heap, σ.streams.set k s⟩) = _
              rw [hsame]
          | obj q =>
            obtain ⟨e, τ, h⟩ := hc.method q "pos" [] σ (by decide)
            exact .inr (hbad' e τ (by rw [invoke]; exact h))
          | pv p => exact .inr (hbad' .attribute σ (by cases p <;> rfl))
          | file _ => exact .inr (hbad' .attribute σ rfl)
          | list _ => exact .inr (hbad' .attribute σ rfl)
    | pv p => exact .inr (hbad .attribute σ (by rw [hraise _ (fun _ h => by cases h)]; rfl))
    | io _ => exact .inr (hbad .attribute σ (by rw [hraise _ (fun _ h => by cases h)]; rfl))
    | file _ => exact .inr (hbad .attribute σ (by rw [hraise _ (fun _ h => by cases h)]; rfl))
    | list _ => exact .inr (hbad .attribute σ (by rw [hraise _ (fun _ h => by cases h)]; rfl))

/-- Looking elsewhere takes these steps, and leaves the stream where it was. -/
theorem within_peek {K : Known} {c : Calls} (hc : Bounds K c) (P : Program) (env : Env) {e e' : Expr} {x : String} (hx : x ≠ "_io") {m n : Nat}
    (he : quiet e = some m) (he' : quiet e' = some n) : Within ⟨15 + (m + n), 0, 0⟩ (execs P c (peekOf e x e') env) := by
  intro σ
  rw [show peekOf e x e' = .assign "_pos" (.call (.attr (.attr (.name "self") "_io") "pos") []) :: (peekOf e x e').tail from rfl, execs, exec]
  rcases run_pos hc P env σ with ⟨r, o, k, s, h1, h2, h3, h4, h5⟩ | ⟨t, e, τ, ht, h⟩
  · have hsame : σ.streams.set k s = σ.streams := by
      obtain ⟨hk, e⟩ := List.getElem?_eq_some_iff.1 h4
      rw [← e, List.set_getElem_self]
    have hspot : Spot σ r k s.buf σ := ⟨⟨o, h2, h3⟩, (List.getElem?_eq_some_iff.1 h4).1, s, hsame.symm, rfl⟩
    have hk := keeps_peek (σ₀ := σ) (k := k) (b := s.buf) (p := s.pos) P c (env := upsert "_pos" (.pv (.int (Int.ofNat s.pos))) env) (r := r)
      (by rw [lookup_env (by decide)]; exact h1) (by rw [grow_lookup_upsert, if_pos rfl]) hx he he' σ hspot
    have h6 : (tick >>= fun _ => eval P c env (.call (.attr (.attr (.name "self") "_io") "pos") []) >>= fun v => (pure (Flow.next (upsert "_pos" v env)) : T Flow)).run σ =
        (4, .ok (.next (upsert "_pos" (.pv (.int (Int.ofNat s.pos))) env)) σ) := by
      rw [run_tick, run_ok h5]
      rfl
    rw [run_ok h6]
    dsimp only
    obtain ⟨h7, h8⟩ := hk
    rcases hr : (execs P c (peekOf e x e').tail (upsert "_pos" (.pv (.int (Int.ofNat s.pos))) env)).run σ with ⟨t, ⟨a, τ⟩ | ⟨e, τ⟩⟩
    · rw [hr] at h7 h8
      have := left_back h4 (h8 a τ rfl).1
      refine ⟨?_, ?_⟩
      · show left τ + 0 ≤ left σ
        omega
      · show 4 + t + 0 * _ ≤ 15 + (m + n) + 0 * _
        dsimp only at h7
        omega
    · rw [hr] at h7
      show 4 + t ≤ 15 + (m + n) + 0 * _
      dsimp only at h7
      omega
  · have h6 : (tick >>= fun _ => eval P c env (.call (.attr (.attr (.name "self") "_io") "pos") []) >>= fun v => (pure (Flow.next (upsert "_pos" v env)) : T Flow)).run σ =
        (1 + t, .raise e τ) := by
      rw [run_tick, run_raise h]
    rw [run_raise h6]
    show 1 + t ≤ 15 + (m + n) + 0 * _
    omega

end Dmr.Py.Time
