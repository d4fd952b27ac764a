import Verif.Py.VersionExec
import Verif.Py.Conform.DmrDataHeader
/-
The property `DmrDataHeader.data` with the two versions of kaitaistruct. Between the two calls of `seek` it also decodes an object from a
stream of its own; that does not touch the other stream.
-/

set_option autoImplicit false
set_option linter.unusedSectionVars false

namespace Dmr.Py.Threads.Version

open ConformEtsi

/-- The same memory, with `n` streams, and the stream `k` is one of them and has no bits that were read ahead. -/
def Calm (k n : Nat) (σ' σ : State) : Prop := σ' = σ ∧ forget k σ = σ ∧ k < n ∧ σ.streams.length = n

/-- The same, whatever the number. -/
def Quiet (k : Nat) (σ' σ : State) : Prop := σ' = σ ∧ forget k σ = σ

theorem forget_iff (k : Nat) (σ : State) : forget k σ = σ ↔ ∀ s, σ.streams[k]? = some s → clear s = s := by
  constructor
  · intro h s hs
    have := congrArg (fun τ : State => τ.streams[k]?) h
    rw [forget_eq] at this
    dsimp only at this
    rw [List.getElem?_modify_eq, hs] at this
    exact Option.some.inj this
  · intro h
    rw [forget_eq]
    have : σ.streams.modify k clear = σ.streams := by
      apply List.ext_getElem?
      intro i
      rw [List.getElem?_modify]
      by_cases e : k = i
      · subst e
        cases hs : σ.streams[k]? with
        | none => simp
        | some s => simp [h s hs]
      · simp [e]
    rw [this]

theorem rel_use_calm {H : List Obj} (k : Nat) {m : String} {a : List PyVal} (hm : Reads m a) :
    Rel false (Dirty k H) (fun σ' σ => ∃ n, Calm k n σ' σ) (fun _ => True) (R.use k m a) := by
  intro σ' σ hi
  have h := rel_use_read (s := false) k hm σ' σ hi
  have h2 : ∀ v τ, (R.use k m a).run σ = .ok v τ → k < τ.streams.length := fun v τ hv => by
    change ((ioMethod k m (a.map .pv)).run σ).bind (fun v τ => .ok v τ) = .ok v τ at hv
    rw [bind_ok] at hv
    exact io_exists _ _ _ hv
  revert h h2
  rcases (R.use k m a).run11 σ' with ⟨v, τ⟩ | ⟨e, τ⟩ <;> rcases (R.use k m a).run σ with ⟨w, υ⟩ | ⟨f, υ⟩ <;> intro h h2
  · obtain ⟨h3, h4, h5, h6, h7⟩ := h
    exact ⟨h3, h4, _, h5, h7, h2 _ _ rfl, rfl⟩
  · exact h
  · exact h
  · exact h

theorem rel_some {α : Type} {I : Nat → State → State → Prop} {J : State → State → Prop} {Q : α → Prop} {p : R α} (h : ∀ n, Rel false (I n) J Q p) :
    Rel false (fun σ' σ => ∃ n, I n σ' σ) J Q p := by
  rintro σ' σ ⟨n, hi⟩
  exact h n σ' σ hi

theorem rel_put (k n : Nat) (r : Nat) (x : String) (v : Val) : Rel false (Calm k n) (Calm k n) (fun _ => True) (R.put r x v) := by
  rintro σ _ ⟨rfl, h1, h2, h3⟩
  show Agree false _ _ (((Py.store r x v).run σ).bind _) (((Py.store r x v).run σ).bind _)
  unfold Py.store M.run
  dsimp only
  cases σ.heap[r]? with
  | none => exact ⟨rfl, .inr rfl⟩
  | some o => exact ⟨rfl, trivial, rfl, (forget_iff _ _).2 ((forget_iff k σ).1 h1), h2, h3⟩

theorem rel_put_quiet (k : Nat) (r : Nat) (x : String) (v : Val) : Rel false (Quiet k) (Quiet k) (fun _ => True) (R.put r x v) := by
  rintro σ _ ⟨rfl, h1⟩
  show Agree false _ _ (((Py.store r x v).run σ).bind _) (((Py.store r x v).run σ).bind _)
  unfold Py.store M.run
  dsimp only
  cases σ.heap[r]? with
  | none => exact ⟨rfl, .inr rfl⟩
  | some o => exact ⟨rfl, trivial, rfl, (forget_iff _ _).2 ((forget_iff k σ).1 h1)⟩

theorem rel_open (k n : Nat) (b : Bytes) : Rel false (Calm k n) (Calm k (n + 1)) (fun m => m = n) (R.open_ b) := by
  rintro σ _ ⟨rfl, h1, h2, h3⟩
  refine ⟨rfl, h3, rfl, (forget_iff _ _).2 fun s hs => (forget_iff k σ).1 h1 s ?_, by omega, by simp [h3]⟩
  rw [← hs, List.getElem?_append_left (by omega)]

/-- `self.x`, where `x` is not a property. -/
theorem rel_own {I : State → State → Prop} (hI : ∀ σ' σ, I σ' σ → σ' = σ) (P : Program) {c : Calls} (hc : Bare c) (env : Env) {x : String}
    (hx : x ∈ ["_io", "_root", "data_packet_format", "_raw__m_data"]) : Rel false I I (fun _ => True) (eval P c env (.attr (.name "self") x)) := by
  intro σ' σ hi
  have hs := hI _ _ hi
  subst hs
  refine (?_ : Rel false (fun τ' τ => I τ' τ ∧ τ = σ' ∧ τ' = σ') I _ _) σ' σ' ⟨hi, rfl, rfl⟩
  have on : On σ'.heap (fun τ' τ => I τ' τ ∧ τ = σ' ∧ τ' = σ') := by rintro _ _ ⟨_, rfl, rfl⟩; exact ⟨rfl, rfl⟩
  rw [eval, eval]
  · refine rel_bind (J := fun τ' τ => I τ' τ ∧ τ = σ' ∧ τ' = σ') (Q := fun _ => True) ?_ fun v _ =>
      (rel_getattr on (fine_lax _) hc v hx).mono (fun _ _ h => h) (fun _ _ h => h.1) fun _ _ => trivial
    cases env.lookup "self" with
    | none => exact rel_lost lost_attribute (fine_lax _)
    | some v => exact rel_pure trivial
  · intro e he; cases he

theorem rel_bytesIO {I : State → State → Prop} (l : List Val) : Rel false I I (fun v => ∃ b, v = .file b) (builtin "BytesIO" l) := by
  rw [builtin.eq_def]
  split
  all_goals first | contradiction | exact rel_lost lost_attribute (fine_lax _) | exact rel_pure ⟨_, rfl⟩

theorem rel_calm_own (k n : Nat) (P : Program) {c : Calls} (hc : Bare c) (env : Env) {x : String} (hx : x ∈ ["_io", "_root", "data_packet_format", "_raw__m_data"]) :
    Rel false (Calm k n) (Calm k n) (fun _ => True) (eval P c env (.attr (.name "self") x)) := rel_own (fun _ _ h => h.1) P hc env hx

/-- `KaitaiStream(BytesIO(self._raw__m_data))`. -/
theorem rel_substream (k n : Nat) (P : Program) {c : Calls} (hc : Bare c) (env : Env) :
    Rel false (Calm k n) (Calm k (n + 1)) (fun v => v = .io n)
      (eval P c env (.call (.global "KaitaiStream") [.call (.global "BytesIO") [.attr (.name "self") "_raw__m_data"]])) := by
  rw [eval, evals, evals]
  refine rel_bind (J := Calm k n) (Q := fun l => ∃ b, l = [.file b]) ?_ ?_
  · refine rel_bind (J := Calm k n) (Q := fun v => ∃ b, v = .file b) ?_ ?_
    · rw [eval]
      exact rel_bind (rel_one _ _ _ _ (rel_calm_own k n P hc env (by simp))) fun l _ => rel_bytesIO l
    · rintro _ ⟨b, rfl⟩
      exact rel_bind (J := Calm k n) (Q := fun l => l = []) (rel_pure rfl) fun l hl => rel_pure ⟨b, by rw [hl]⟩
  · rintro _ ⟨b, rfl⟩
    show Rel false _ _ _ (R.open_ b >>= fun m => pure (Val.io m))
    exact rel_bind (rel_open k n b) fun m hm => rel_pure (by rw [hm])

/-- What a constructor that is called like this does with the other streams: nothing. -/
def Spares (c : Calls) (cls : String) : Prop :=
  ∀ (k : Nat) (parent root : Val) (σ τ : State) (v : Val), k < σ.streams.length → (c.construct cls [.io k, parent, root]).run σ = .ok v τ →
    ∀ i, i ≠ k → τ.streams[i]? = σ.streams[i]?

/-- One of the branches. -/
def branch (cls : String) : List Stmt :=
  [.setattr (.name "self") "_raw__m_data" (.call (.attr (.name "io") "read_bytes") [.int 12]),
   .assign "_io__raw__m_data" (.call (.global "KaitaiStream") [.call (.global "BytesIO") [.attr (.name "self") "_raw__m_data"]]),
   .setattr (.name "self") "_m_data" (.call (.cls cls) [.name "_io__raw__m_data", .name "self", .attr (.name "self") "_root"])]

/-- The statement is done, and `io` is still the stream. -/
def Going (k : Nat) (f : Flow) : Prop := ∃ env : Env, f = .next env ∧ env.lookup "io" = some (.io k)

/-- `io.m(...)`. -/
theorem rel_ioVar {I J : State → State → Prop} {Q : Val → Prop} (P : Program) {c : Calls} (hc : Bare c) {env : Env} {k : Nat} (he : env.lookup "io" = some (.io k))
    {m : String} (hm : m ∈ ["pos", "size", "seek", "read_u1", "read_u2be", "read_bytes"]) (args : List Expr)
    (ha : Rel false I I (fun _ => True) (evals P c env args)) (hu : ∀ a, Rel false I J Q (R.use k m a)) : Rel false I J Q (eval P c env (.call (.attr (.name "io") m) args)) := by
  rw [call_eval _ _ _ _ (by rintro rfl; simp at hm)]
  refine rel_bind (J := I) (Q := fun v => v = .io k) ((rel_name (fine_lax _) P c env "io").mono (fun _ _ h => h) (fun _ _ h => h) fun v hv => ?_) fun v hv =>
    rel_bind ha fun l _ => rel_invoke (fine_lax _) hc v l hm fun k' a h1 _ => ?_
  · rw [he] at hv; exact (Option.some.inj hv).symm
  · rw [hv] at h1
    cases h1
    exact hu a

theorem rel_branch (P : Program) {c : Calls} (hs : CallsSame c) (hc : Bare c) (k : Nat) (H : List Obj) {cls : String} (hsp : Spares c cls) {env : Env}
    (he : env.lookup "io" = some (.io k)) : Rel false (Dirty k H) (Quiet k) (Going k) (execs P c (branch cls) env) := by
  rw [branch, execs]
  refine rel_bind (J := fun σ' σ => ∃ n, Calm k n σ' σ) (Q := fun f => f = .next env) ?_ ?_
  · rw [exec]
    rw [call_eval _ _ _ _ (by decide)]
    refine rel_bind (J := fun σ' σ => ∃ n, Calm k n σ' σ) (Q := fun _ => True) ?_ fun v _ => rel_some fun n => ?_
    · refine rel_bind (J := Dirty k H) (Q := fun v => v = .io k) ((rel_name (fine_lax _) P c env "io").mono (fun _ _ h => h) (fun _ _ h => h) fun v hv => ?_) fun v hv => ?_
      · rw [he] at hv; exact (Option.some.inj hv).symm
      · subst hv
        rw [evals, evals, eval]
        exact rel_bind (J := Dirty k H) (Q := fun l => l = [.pv (.int 12)]) (rel_pure rfl) fun l hl => by
          subst hl
          exact rel_use_calm k (.bytes 12)
    refine Rel.mono (J := Calm k n) ?_ (fun _ _ h => h) (fun _ _ h => ⟨n, h⟩) fun _ h => h
    refine rel_bind (rel_name (fine_lax _) P c env "self") fun u _ => ?_
    cases u with
    | obj r => exact rel_bind (rel_put k n r _ v) fun _ _ => rel_pure rfl
    | pv _ | io _ | file _ | list _ => exact rel_lost lost_attribute (fine_lax _)
  · rintro f rfl
    refine rel_some fun n => ?_
    intro σ' σ hcalm
    have hk := hcalm.2.2.1
    refine (?_ : Rel false (Calm k n) _ _ _) σ' σ hcalm
    show Rel false _ _ _ (execs P c _ env)
    rw [execs]
    refine rel_bind (J := Calm k (n + 1)) (Q := fun f => f = .next (upsert "_io__raw__m_data" (.io n) env)) ?_ ?_
    · rw [exec]
      exact rel_bind (rel_substream k n P hc env) fun v hv => rel_pure (by rw [hv])
    · rintro f rfl
      have he2 : (upsert "_io__raw__m_data" (.io n) env).lookup "io" = some (.io k) := (lookup_env (by decide)).trans he
      have he3 : (upsert "_io__raw__m_data" (.io n) env).lookup "_io__raw__m_data" = some (.io n) := by rw [grow_lookup_upsert, if_pos rfl]
      generalize upsert "_io__raw__m_data" (.io n) env = env2 at he2 he3
      show Rel false _ _ _ (execs P c _ env2)
      rw [execs]
      refine rel_bind (J := Quiet k) (Q := fun f => f = .next env2) ?_ ?_
      · rw [exec, eval]
        refine rel_bind (J := Quiet k) (Q := fun _ => True) (rel_bind (J := Calm k (n + 1)) (Q := fun l => ∃ u w, l = [.io n, u, w]) ?_ ?_) ?_
        · rw [evals]
          refine rel_bind (rel_name (fine_lax _) P c env2 "_io__raw__m_data") fun v hv => ?_
          rw [he3] at hv
          cases hv
          refine rel_bind (J := Calm k (n + 1)) (Q := fun l => ∃ u w, l = [u, w]) ?_ ?_
          · rw [evals]
            refine rel_bind (rel_name (fine_lax _) P c env2 "self") fun u _ => ?_
            refine rel_bind (J := Calm k (n + 1)) (Q := fun l => ∃ w, l = [w]) ?_ ?_
            · rw [evals, evals]
              exact rel_bind (rel_calm_own k (n + 1) P hc env2 (by simp)) fun w _ =>
                rel_bind (J := Calm k (n + 1)) (Q := fun l => l = []) (rel_pure rfl) fun l hl => rel_pure ⟨w, by rw [hl]⟩
            · rintro _ ⟨w, rfl⟩
              exact rel_pure ⟨u, w, rfl⟩
          · rintro _ ⟨u, w, rfl⟩
            exact rel_pure ⟨u, w, rfl⟩
        · rintro _ ⟨u, w, rfl⟩
          rintro σ _ ⟨rfl, h1, h2, h3⟩
          have h4 := (hs.construct cls [.io n, u, w]).rel (s := false) σ σ rfl
          have h5 := hsp n u w σ
          revert h4 h5
          rcases (c.construct cls [.io n, u, w]).run11 σ with ⟨v, τ⟩ | ⟨e, τ⟩ <;> rcases (c.construct cls [.io n, u, w]).run σ with ⟨v', υ⟩ | ⟨e', υ⟩ <;> intro h4 h5
          · obtain ⟨rfl, _, rfl⟩ := h4
            refine ⟨rfl, trivial, rfl, (forget_iff _ _).2 fun s hs => (forget_iff k σ).1 h1 s ?_⟩
            rw [← hs]
            exact (h5 _ _ (by omega) rfl k (by omega)).symm
          · exact h4.elim
          · exact h4.elim
          · exact h4
        · intro v _
          refine rel_bind (rel_name (fine_lax _) P c env2 "self") fun u _ => ?_
          cases u with
          | obj r => exact rel_bind (rel_put_quiet k r _ v) fun _ _ => rel_pure rfl
          | pv _ | io _ | file _ | list _ => exact rel_lost lost_attribute (fine_lax _)
      · rintro f rfl
        show Rel false _ _ _ (execs P c [] env2)
        rw [execs]
        exact rel_pure ⟨env2, rfl, he2⟩

/-- `if _on == DmrDataHeader.DataPacketFormats.m: ... else: ...` -/
def choose (m : String) (a b : List Stmt) : Stmt :=
  .if_ (.cmp .eq (.name "_on") (.attr (.enum "Etsi.DmrDataHeader.DataPacketFormats") m)) a b

theorem rel_choose (P : Program) {c : Calls} (k : Nat) (H : List Obj) (m : String) {a b : List Stmt} {env : Env}
    (ha : Rel false (Dirty k H) (Quiet k) (Going k) (execs P c a env)) (hb : Rel false (Dirty k H) (Quiet k) (Going k) (execs P c b env)) :
    Rel false (Dirty k H) (Quiet k) (Going k) (exec P c (choose m a b) env) := by
  rw [choose, exec]
  refine rel_bind (J := Dirty k H) (Q := fun _ => True) ?_ fun v _ => ?_
  · rw [eval]
    refine rel_bind (rel_name (fine_lax _) P c env "_on") fun x _ => rel_bind (J := Dirty k H) (Q := fun _ => True) ?_ fun y _ => rel_still (fine_lax _) _ fun e σ hr => ?_
    · rw [eval]
      cases P.enums.find? (fun d => d.qualified == "Etsi.DmrDataHeader.DataPacketFormats") with
      | none => exact rel_lost lost_attribute (fine_lax _)
      | some d => dsimp only; cases d.members.lookup m <;> first | exact rel_lost lost_attribute (fine_lax _) | exact rel_pure trivial
    · cases hr
  · split
    · exact ha
    · exact hb

theorem rel_single (P : Program) {c : Calls} (k : Nat) (H : List Obj) {st : Stmt} {env : Env} (h : Rel false (Dirty k H) (Quiet k) (Going k) (exec P c st env)) :
    Rel false (Dirty k H) (Quiet k) (Going k) (execs P c [st] env) := by
  rw [execs]
  refine rel_bind h ?_
  rintro f ⟨env2, rfl, he⟩
  show Rel false _ _ _ (execs P c [] env2)
  rw [execs]
  exact rel_pure ⟨env2, rfl, he⟩

/-- `data`: its body. -/
def dataBody (ch : Stmt) : List Stmt :=
  [.if_ (.call (.global "hasattr") [.name "self", .str "_m_data"]) [.return_ (.attr (.name "self") "_m_data")] [],
   .assign "io" (.attr (.attr (.name "self") "_root") "_io"),
   .assign "_pos" (.call (.attr (.name "io") "pos") []),
   .expr (.call (.attr (.name "io") "seek") [.int 0]),
   .assign "_on" (.attr (.name "self") "data_packet_format"),
   ch,
   .expr (.call (.attr (.name "io") "seek") [.name "_pos"]),
   .return_ (.call (.global "getattr") [.name "self", .str "_m_data", .none])]

theorem same_data (P : Program) {c : Calls} (hs : CallsSame c) (hc : Bare c) {ch : Stmt}
    (hch : ∀ k H env, env.lookup "io" = some (.io k) → Rel false (Dirty k H) (Quiet k) (Going k) (exec P c ch env)) (env : Env) :
    Rel false Eq Eq (fun _ => True) (execs P c (dataBody ch) env) := by
  rw [dataBody, execs]
  refine rel_bind (same_exec P hs hc _ (by decide) env).rel fun f _ => ?_
  match f with
  | .brk _ => exact (same_pure _).rel
  | .ret _ => exact (same_pure _).rel
  | .next env =>
  show Rel false _ _ _ (execs P c _ env)
  rw [execs]
  refine rel_bind (same_exec P hs hc _ (by decide) env).rel fun f _ => ?_
  match f with
  | .brk _ => exact (same_pure _).rel
  | .ret _ => exact (same_pure _).rel
  | .next env =>
  show Rel false _ _ _ (execs P c _ env)
  rintro σ _ rfl
  suffices key : ∀ H, Rel false (Open H) Eq (fun _ => True) _ from key σ.heap σ σ ⟨rfl, rfl⟩
  intro H
  rw [execs]
  refine rel_bind (J := Open H) (Q := fun f => ∃ k, Going k f) ?_ ?_
  · rw [exec, call_eval _ _ _ _ (by decide)]
    refine rel_bind (J := Open H) (Q := fun _ => ∃ k, env.lookup "io" = some (.io k)) ?_ fun p ⟨k, hk⟩ => rel_pure ⟨k, _, rfl, (lookup_env (by decide)).trans hk⟩
    refine rel_bind (rel_name (fine_lax _) P c env "io") fun w hw => rel_bind (rel_none _ _ _) fun l _ => rel_invoke (fine_lax _) hc w l (by simp) fun k a hk _ => ?_
    subst hk
    exact (rel_use_open (by decide) k a).mono (fun _ _ h => h) (fun _ _ h => h) fun _ _ => ⟨k, hw⟩
  · rintro f ⟨k, env2, rfl, he⟩
    show Rel false _ _ _ (execs P c _ env2)
    rw [execs]
    refine rel_bind (J := Dirty k H) (Q := fun f => f = .next env2) ?_ ?_
    · rw [expr_exec _ _ _ _ (by decide)]
      exact rel_bind (rel_ioVar P hc he (by simp) _ (rel_one _ _ _ _ (rel_int _ _ _ _)) fun a => rel_use_seek k a) fun _ _ => rel_pure rfl
    · rintro f rfl
      show Rel false _ _ _ (execs P c _ env2)
      rw [execs]
      refine rel_bind (J := Dirty k H) (Q := Going k) ?_ ?_
      · rw [exec, eval, eval]
        · refine rel_bind (J := Dirty k H) (Q := fun _ => True) ?_ fun v _ => rel_pure ⟨_, rfl, (lookup_env (by decide)).trans he⟩
          refine rel_bind (rel_name (fine_lax _) P c env2 "self") fun v _ => (rel_getattr (on_dirty k H) (fine_lax _) hc v (by simp)).mono (fun _ _ h => h) (fun _ _ h => h) fun _ _ => trivial
        · intro e he; cases he
      · rintro f ⟨env3, rfl, he3⟩
        show Rel false _ _ _ (execs P c _ env3)
        rw [execs]
        refine rel_bind (hch k H env3 he3) ?_
        rintro f ⟨env4, rfl, he4⟩
        show Rel false _ _ _ (execs P c _ env4)
        rw [execs]
        refine rel_bind (J := Eq) (Q := fun f => f = .next env4) ?_ ?_
        · rw [expr_exec _ _ _ _ (by decide)]
          refine rel_bind (J := Eq) (Q := fun _ => True) ?_ fun _ _ => rel_pure rfl
          rintro σ' σ hq
          refine (?_ : Rel false (Clean k σ.heap) _ _ _) σ' σ ⟨hq.1, rfl, hq.2⟩
          exact rel_ioVar P hc he4 (by simp) _ (rel_one _ _ _ _ ((rel_name (fine_lax _) P c env4 "_pos").mono (fun _ _ h => h) (fun _ _ h => h) fun _ _ => trivial))
            fun a => rel_use_back k a
        · rintro f rfl
          exact (same_execs P hs hc _ (by decide) env4).rel

theorem spares_of {α : Type} {n : Nat} {cls : String} {rd : Rd α} {toPy : α → PyVal}
    (h : ∀ (H : List Obj) (S : List Stream) (k : Nat) (_ : k < S.length) (s : Stream) (parent root : Val),
      ((Py.calls library n).construct cls [.io k, parent, root]).run ⟨H, S.set k s⟩ =
        after rd s (fun e s' => .raise e ⟨H, S.set k s'⟩) (built toPy k parent root H S)) : Spares (calls library n) cls := by
  intro k parent root σ τ v hk hv i hi
  have h1 := (Threads.calls_same library n).construct cls [.io k, parent, root] σ
  have h2 := h σ.heap σ.streams k hk σ.streams[k] parent root
  rw [List.set_getElem_self] at h2
  rw [hv] at h1
  change Alike _ (((Py.calls library n).construct cls [.io k, parent, root]).run ⟨σ.heap, σ.streams⟩) at h1
  rw [h2] at h1
  unfold after at h1
  generalize rd σ.streams[k] = w at h1
  rcases w with ⟨e | x, s'⟩
  · exact False.elim h1
  · obtain ⟨_, rfl⟩ : _ ∧ _ := h1
    exact List.getElem?_set_ne (Ne.symm hi)

/-- The branches of `data`. -/
def dataChoice : Stmt :=
  choose "proprietary" (branch "Etsi.DmrDataHeader.DataHeaderProprietary")
    [choose "short_data_defined" (branch "Etsi.DmrDataHeader.DataHeaderShortDefined")
      [choose "data_packet_unconfirmed" (branch "Etsi.DmrDataHeader.DataHeaderUnconfirmed")
        [choose "data_packet_confirmed" (branch "Etsi.DmrDataHeader.DataHeaderConfirmed")
          [choose "unified_data_transport" (branch "Etsi.DmrDataHeader.DataHeaderUdt")
            [choose "short_data_raw_or_status_or_precoded" (branch "Etsi.DmrDataHeader.DataHeaderShortStatusPrecoded")
              [choose "response_packet" (branch "Etsi.DmrDataHeader.DataHeaderResponse") (branch "Etsi.DmrDataHeader.DataHeaderUndefined")]]]]]]

theorem data_source : Source.Etsi.DmrDataHeader.properties.lookup "data" = some ⟨["self"], dataBody dataChoice⟩ := rfl

theorem library_classFits : ∀ d ∈ library.classes, classFits d = true := by
  rw [← List.all_eq_true]
  decide +kernel

theorem library_bare (n : Nat) : Bare (calls library n) := calls_bare library library_classFits n
theorem library_same11 (n : Nat) : CallsSame (calls library n) := calls_same11 library library_classFits n

theorem same_dataChoice (n : Nat) (k : Nat) (H : List Obj) (env : Env) (he : env.lookup "io" = some (.io k)) :
    Rel false (Dirty k H) (Quiet k) (Going k) (exec library (calls library (n + 3)) dataChoice env) := by
  have b := fun cls hcls => rel_branch library (library_same11 (n + 3)) (library_bare (n + 3)) k H (cls := cls) hcls he
  unfold dataChoice
  refine rel_choose _ _ _ _ (b _ (spares_of (DmrDataHeader_DataHeaderProprietary_builds n))) (rel_single _ _ _ ?_)
  refine rel_choose _ _ _ _ (b _ (spares_of (DmrDataHeader_DataHeaderShortDefined_builds n))) (rel_single _ _ _ ?_)
  refine rel_choose _ _ _ _ (b _ (spares_of (DmrDataHeader_DataHeaderUnconfirmed_builds n))) (rel_single _ _ _ ?_)
  refine rel_choose _ _ _ _ (b _ (spares_of (DmrDataHeader_DataHeaderConfirmed_builds n))) (rel_single _ _ _ ?_)
  refine rel_choose _ _ _ _ (b _ (spares_of (DmrDataHeader_DataHeaderUdt_builds n))) (rel_single _ _ _ ?_)
  refine rel_choose _ _ _ _ (b _ (spares_of (DmrDataHeader_DataHeaderShortStatusPrecoded_builds n))) (rel_single _ _ _ ?_)
  exact rel_choose _ _ _ _ (b _ (spares_of (DmrDataHeader_DataHeaderResponse_builds n))) (b _ (spares_of (DmrDataHeader_DataHeaderUndefined_builds n)))

set_option maxRecDepth 20000 in
/-- The only class with a property `data`. -/
theorem only_data : ∀ d ∈ library.classes, (d.properties.lookup "data").isSome = true → d.name = "Etsi.DmrDataHeader" := by
  have : library.classes.all (fun d => !(d.properties.lookup "data").isSome || d.name == "Etsi.DmrDataHeader") = true := by decide +kernel
  intro d hd h
  have := List.all_eq_true.1 this d hd
  rw [h] at this
  simpa using this

theorem library_data {cls : String} {f : Function} (h : library.property cls "data" = some f) : f = ⟨["self"], dataBody dataChoice⟩ := by
  unfold Program.property at h
  cases hd : library.class cls with
  | none => rw [hd] at h; cases h
  | some d =>
    rw [hd] at h
    change d.properties.lookup "data" = some f at h
    have hmem := List.mem_of_find?_eq_some hd
    have hname := only_data d hmem (by rw [h]; rfl)
    have hcls := List.find?_some hd
    rw [beq_iff_eq] at hcls
    rw [← hcls, hname, DmrDataHeader_class] at hd
    cases hd
    rw [data_source] at h
    exact (Option.some.inj h).symm

/-- The property `data` of every object: the same, but for the memory after an AttributeError. -/
theorem library_data_rel (n : Nat) (r : Nat) : Rel false Eq Eq (fun _ => True) ((calls library (n + 4)).property r "data") := by
  rw [calls]
  refine rel_bind (same_get _).rel fun o _ => ?_
  cases h : library.property o.cls "data" with
  | none => exact (same_raise _).rel
  | some f =>
    rw [library_data h]
    unfold call
    refine rel_bind (same_data library (library_same11 _) (library_bare _) (same_dataChoice n) _) fun f _ => ?_
    cases f <;> exact (same_pure _).rel

end Dmr.Py.Threads.Version
