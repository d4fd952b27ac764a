import Verif.Py.ThreadsRun
import Verif.Py.PropertySpec
/-
Threads that use properties of the same objects (Verif/Props/SourceShared): what a thread may rely on while the others remember values in
these objects.
-/

set_option autoImplicit false

namespace Dmr.Py.Threads

variable {α β : Type}

/-- The memory as it was in the beginning, and what is to be remembered: `V r m v` if `v` is the value for the attribute `m` of the object
`r`. -/
structure Share where
  old : State
  V : Nat → String → Val → Prop
  names : ∀ r m v, V r m v → m ∈ memos
  unique : ∀ r m v w, V r m v → V r m w → v = w

/-- The object `o` is the object `r` as it was, apart from what has been remembered. -/
structure Share.Object (S : Share) (r : Nat) (o₀ o : Obj) : Prop where
  cls : o.cls = o₀.cls
  attrs : ∀ x, o.attrs.lookup x = o₀.attrs.lookup x ∨ (o₀.attrs.lookup x = none ∧ ∃ v, o.attrs.lookup x = some v ∧ S.V r x v)

/-- The memory is as it was, apart from what has been remembered. -/
structure Share.Inv (S : Share) (σ : State) : Prop where
  objects : ∀ r o₀, S.old.heap[r]? = some o₀ → ∃ o, σ.heap[r]? = some o ∧ S.Object r o₀ o
  missing : ∀ r : Nat, S.old.heap[r]? = none → σ.heap[r]? = none
  streams : σ.streams = S.old.streams

/-- What a thread knows: these objects have these attributes. -/
def Known : Type := Nat → String → Prop

/-- It is so in the memory. -/
def Known.true (K : Known) (σ : State) : Prop := ∀ r m, K r m → ∃ o v, σ.heap[r]? = some o ∧ o.attrs.lookup m = some v

/-- The thread `p`, which knows `K`, will end with `Q` after at most so many steps, whatever the others remember meanwhile. -/
inductive Steady (S : Share) (Q : Except PyErr α → Prop) : Known → Nat → R α → Prop
  | done {K : Known} {n : Nat} {a : α} (h : Q (.ok a)) : Steady S Q K n (.done a)
  | raise {K : Known} {n : Nat} {e : PyErr} (h : Q (.error e)) : Steady S Q K n (.raise e)
  | fetch {K : Known} {n r : Nat} {k : Obj → R α} {o₀ : Obj} (h : S.old.heap[r]? = some o₀)
      (next : ∀ o, S.Object r o₀ o → (∀ m, K r m → (o.attrs.lookup m).isSome) →
        Steady S Q (fun s m => K s m ∨ s = r ∧ (o.attrs.lookup m).isSome) n (k o)) : Steady S Q K (n + 1) (.fetch r k)
  | missing {K : Known} {n r : Nat} {k : Obj → R α} (h : S.old.heap[r]? = none) (q : Q (.error .attribute)) : Steady S Q K (n + 1) (.fetch r k)
  | store {K : Known} {n r : Nat} {m : String} {v : Val} {k : R α} {o₀ : Obj} (h : S.old.heap[r]? = some o₀) (new : o₀.attrs.lookup m = none)
      (right : S.V r m v) (next : Steady S Q (fun s x => K s x ∨ s = r ∧ x = m) n k) : Steady S Q K (n + 1) (.store r m v k)
  | foul {K : Known} {n i : Nat} {x : String} {args : List PyVal} {k : Val → R α}
      (h : ∀ σ, (ioMethod i x (args.map .pv)).run σ = .raise .attribute σ) (q : Q (.error .attribute)) : Steady S Q K (n + 1) (.io i x args k)

theorem Steady.later {S : Share} {Q : Except PyErr α → Prop} {K : Known} {n : Nat} {p : R α} (h : Steady S Q K n p) :
    ∀ {m : Nat}, n ≤ m → Steady S Q K m p := by
  induction h with
  | done h => intro m _; exact .done h
  | raise h => intro m _; exact .raise h
  | fetch h _ ih =>
    intro m hm
    obtain ⟨m, rfl⟩ : ∃ m', m = m' + 1 := ⟨m - 1, by omega⟩
    exact .fetch h fun o ho hk => ih o ho hk (by omega)
  | missing h q =>
    intro m hm
    obtain ⟨m, rfl⟩ : ∃ m', m = m' + 1 := ⟨m - 1, by omega⟩
    exact .missing h q
  | store h new right _ ih =>
    intro m hm
    obtain ⟨m, rfl⟩ : ∃ m', m = m' + 1 := ⟨m - 1, by omega⟩
    exact .store h new right (ih (by omega))
  | foul h q =>
    intro m hm
    obtain ⟨m, rfl⟩ : ∃ m', m = m' + 1 := ⟨m - 1, by omega⟩
    exact .foul h q

/-- `f` after it. -/
theorem Steady.bind {S : Share} {Q : Except PyErr α → Prop} {Q' : Except PyErr β → Prop} {K : Known} {n m : Nat} {p : R α} {f : α → R β}
    (h : Steady S Q K n p) (hf : ∀ a K', (∀ r x, K r x → K' r x) → Q (.ok a) → Steady S Q' K' m (f a)) (he : ∀ e, Q (.error e) → Q' (.error e)) :
    Steady S Q' K (n + m) (p >>= f) := by
  show Steady S Q' K (n + m) (p.bind f)
  induction h with
  | done h => exact (hf _ _ (fun _ _ h => h) h).later (by omega)
  | raise h => exact .raise (he _ h)
  | @fetch K n r k o₀ h _ ih =>
    rw [show n + 1 + m = n + m + 1 by omega]
    exact .fetch h fun o ho hk => ih o ho hk fun a K' hK q => hf a K' (fun r x hx => hK r x (.inl hx)) q
  | @missing K n r k h q =>
    rw [show n + 1 + m = n + m + 1 by omega]
    exact .missing h (he _ q)
  | @store K n r x v k o₀ h new right _ ih =>
    rw [show n + 1 + m = n + m + 1 by omega]
    exact .store h new right (ih fun a K' hK q => hf a K' (fun r x hx => hK r x (.inl hx)) q)
  | @foul K n i x args k h q =>
    rw [show n + 1 + m = n + m + 1 by omega]
    exact .foul h (he _ q)

theorem lookup_upsert (x : String) (v : Val) (y : String) : ∀ l : List (String × Val), (upsert x v l).lookup y = if y = x then some v else l.lookup y
  | [] => by
    rw [upsert]
    by_cases h : y = x
    · subst h; simp [List.lookup]
    · have : (y == x) = false := by simpa using h
      simp [List.lookup, h, this]
  | (z, w) :: l => by
    rw [upsert]
    by_cases hz : x = z
    · subst hz
      rw [if_pos rfl]
      by_cases h : y = x
      · subst h; simp [List.lookup]
      · have : (y == x) = false := by simpa using h
        simp [List.lookup, h, this]
    · rw [if_neg hz]
      by_cases h : y = z
      · subst h
        simp [List.lookup, Ne.symm hz]
      · have : (y == z) = false := by simpa using h
        simp only [List.lookup, this]
        exact lookup_upsert x v y l

/-- A step of the thread. The others lose nothing that they know. -/
theorem Steady.step {S : Share} {Q : Except PyErr α → Prop} {K : Known} {n : Nat} {p : R α} {σ : State} (h : Steady S Q K n p) (hi : S.Inv σ)
    (hk : K.true σ) : S.Inv (p.step σ).2 ∧ (∀ K' : Known, K'.true σ → K'.true (p.step σ).2) ∧
      ∃ K' : Known, K'.true (p.step σ).2 ∧ Steady S Q K' (n - 1) (p.step σ).1 := by
  cases h with
  | done h => exact ⟨hi, fun _ h => h, K, hk, .done h⟩
  | raise h => exact ⟨hi, fun _ h => h, K, hk, .raise h⟩
  | @fetch _ n r k o₀ h next =>
    obtain ⟨o, ho, hr⟩ := hi.objects r o₀ h
    have e : (R.fetch r k).step σ = (k o, σ) := by
      rw [R.step]
      show R.next k (Py.fetch r σ) = _
      unfold Py.fetch
      rw [ho]
      rfl
    rw [e]
    have hm : ∀ m, K r m → (o.attrs.lookup m).isSome := by
      intro m hm
      obtain ⟨o', v, ho', hv⟩ := hk r m hm
      rw [ho] at ho'
      cases ho'
      rw [hv]; rfl
    refine ⟨hi, fun _ h => h, _, ?_, next o hr hm⟩
    rintro s m (hx | ⟨rfl, hx⟩)
    · exact hk s m hx
    · obtain ⟨v, hv⟩ := Option.isSome_iff_exists.1 hx
      exact ⟨o, v, ho, hv⟩
  | @missing _ n r k h q =>
    have e : (R.fetch r k).step σ = (.raise .attribute, σ) := by
      rw [R.step]
      show R.next k (Py.fetch r σ) = _
      unfold Py.fetch
      rw [hi.missing r h]
      rfl
    rw [e]
    exact ⟨hi, fun _ h => h, K, hk, .raise q⟩
  | @store _ n r m v k o₀ h new right next =>
    obtain ⟨o, ho, hr⟩ := hi.objects r o₀ h
    have e : (R.store r m v k).step σ = (k, ⟨σ.heap.set r ⟨o.cls, upsert m v o.attrs⟩, σ.streams⟩) := by
      rw [R.step]
      show R.next (fun _ => k) (Py.store r m v σ) = _
      unfold Py.store
      rw [ho]
      rfl
    rw [e]
    have hlt : r < σ.heap.length := (List.getElem?_eq_some_iff.1 ho).1
    have hset : (σ.heap.set r (⟨o.cls, upsert m v o.attrs⟩ : Obj))[r]? = some ⟨o.cls, upsert m v o.attrs⟩ := by
      rw [List.getElem?_set_self hlt]
    have keep : ∀ K' : Known, K'.true σ → K'.true ⟨σ.heap.set r ⟨o.cls, upsert m v o.attrs⟩, σ.streams⟩ := by
      intro K' hK s x hx
      obtain ⟨o', w, ho', hw⟩ := hK s x hx
      by_cases hs : r = s
      · subst hs
        rw [ho] at ho'
        cases ho'
        refine ⟨_, if x = m then v else w, hset, ?_⟩
        rw [lookup_upsert]
        by_cases hx : x = m
        · simp [hx]
        · simp [hx, hw]
      · exact ⟨o', w, by rw [← ho']; exact List.getElem?_set_ne hs, hw⟩
    refine ⟨⟨fun s p₀ hp => ?_, fun s hs => ?_, hi.streams⟩, keep, _, ?_, next⟩
    · by_cases hs : r = s
      · subst hs
        rw [h] at hp
        cases hp
        refine ⟨_, hset, hr.cls, fun x => ?_⟩
        dsimp only
        rw [lookup_upsert]
        by_cases hx : x = m
        · subst hx
          rw [if_pos rfl]
          exact .inr ⟨new, v, rfl, right⟩
        · rw [if_neg hx]
          exact hr.attrs x
      · obtain ⟨p, hp, hp'⟩ := hi.objects s p₀ hp
        exact ⟨p, by rw [← hp]; exact List.getElem?_set_ne hs, hp'⟩
    · have : r ≠ s := by
        rintro rfl
        rw [h] at hs; cases hs
      rw [← hi.missing s hs]
      exact List.getElem?_set_ne this
    · rintro s x (hx | ⟨rfl, rfl⟩)
      · exact keep K hk s x hx
      · exact ⟨_, v, hset, by rw [lookup_upsert, if_pos rfl]⟩
  | @foul _ n i x args k h q =>
    have e : (R.io i x args k).step σ = (.raise .attribute, σ) := by rw [R.step, h]; rfl
    rw [e]
    exact ⟨hi, fun _ h => h, K, hk, .raise q⟩

/-- What a thread has come to, if it has ended. -/
def R.result : R α → Option (Except PyErr α)
  | .done a => some (.ok a)
  | .raise e => some (.error e)
  | _ => none

/-- The value or the exception. -/
def _root_.Dmr.Py.Out.result : Out α → Except PyErr α
  | .ok a _ => .ok a
  | .raise e _ => .error e

theorem Steady.result {S : Share} {Q : Except PyErr α → Prop} {K : Known} {n : Nat} {p : R α} (h : Steady S Q K n p) (a : Except PyErr α)
    (hp : p.result = some a) : Q a := by
  cases h with
  | done h => cases hp; exact h
  | raise h => cases hp; exact h
  | fetch | missing | store | foul => cases hp

theorem Steady.zero {S : Share} {Q : Except PyErr α → Prop} {K : Known} {p : R α} (h : Steady S Q K 0 p) : ∃ a, p.result = some a := by
  cases h with
  | done h => exact ⟨_, rfl⟩
  | raise h => exact ⟨_, rfl⟩

theorem run_result {p : R α} {a : Except PyErr α} (h : p.result = some a) (σ : State) : (p.run σ).result = a := by
  cases p <;> cases h <;> rfl

/-- Alone it ends with `Q` too. -/
theorem Steady.run {S : Share} {Q : Except PyErr α → Prop} {K : Known} {n : Nat} {p : R α} {σ : State} (h : Steady S Q K n p) (hi : S.Inv σ)
    (hk : K.true σ) : Q (p.run σ).result := by
  induction n generalizing p K σ with
  | zero =>
    obtain ⟨a, ha⟩ := h.zero
    rw [run_result ha]
    exact h.result a ha
  | succ n ih =>
    obtain ⟨hi', -, K', hk', h'⟩ := h.step hi hk
    rw [← step_run]
    exact ih h' hi' hk'

theorem Share.start (S : Share) : S.Inv S.old := ⟨fun _ o h => ⟨o, h, rfl, fun _ => .inl rfl⟩, fun _ h => h, rfl⟩

/-- Names of attributes that no property uses to remember something, and that are no properties. -/
def ordinary (P : Program) (x : String) : Bool := !memos.contains x && P.classes.all fun d => (d.properties.lookup x).isNone

/-- The expression does nothing but look at such attributes, and calculate. -/
def plain (P : Program) : Expr → Bool
  | .none | .bool _ | .int _ | .str _ | .name _ | .attr (.enum _) _ => true
  | .attr e x => ordinary P x && plain P e
  | .call (.global "str") [e] | .call (.global "int") [e] => plain P e
  | .call (.attr e "decode") [.str _] => (P.classes.all fun d => (d.methods.lookup "decode").isNone) && plain P e
  | .bin _ a b | .cmp _ a b | .and a b | .or a b => plain P a && plain P b
  | .not e => plain P e
  | .ifExp t a b => plain P t && plain P a && plain P b
  | _ => false

/-- At most so many steps. -/
def turns : Expr → Nat
  | .attr e _ => turns e + 2
  | .call (.global _) [e] => turns e
  | .call (.attr e _) _ => turns e + 1
  | .bin _ a b | .cmp _ a b | .and a b | .or a b => turns a + turns b
  | .not e => turns e
  | .ifExp t a b => turns t + turns a + turns b
  | _ => 0

/-- The thread will come to `a`, whatever the others remember meanwhile. -/
def Tells (S : Share) (n : Nat) (p : R α) (a : Except PyErr α) : Prop := ∀ K : Known, Steady S (· = a) K n p

theorem tells_done (S : Share) (n : Nat) (a : α) : Tells S n (R.done a) (.ok a) := fun _ => .done rfl
theorem tells_pure (S : Share) (n : Nat) (a : α) : Tells S n (pure a : R α) (.ok a) := fun _ => .done rfl
theorem tells_raise (S : Share) (n : Nat) (e : PyErr) : Tells S n (R.raise e : R α) (.error e) := fun _ => .raise rfl

theorem tells_bind {S : Share} {n m : Nat} {p : R α} {f : α → R β} (hp : ∃ a, Tells S n p a) (hf : ∀ a, ∃ b, Tells S m (f a) b) :
    ∃ b, Tells S (n + m) (p >>= f) b := by
  obtain ⟨a, ha⟩ := hp
  cases a with
  | error e => exact ⟨.error e, fun K => (ha K).bind (fun _ _ _ h => nomatch h) fun e' h => by cases h; rfl⟩
  | ok a =>
    obtain ⟨b, hb⟩ := hf a
    exact ⟨b, fun K => (ha K).bind (fun a' K' _ h => by cases h; exact hb K') fun e' h => nomatch h⟩

theorem tells_later {S : Share} {n m : Nat} {p : R α} (h : ∃ a, Tells S n p a) (hm : n ≤ m) : ∃ a, Tells S m p a := by
  obtain ⟨a, ha⟩ := h
  exact ⟨a, fun K => (ha K).later hm⟩

theorem ordinary_memo {P : Program} {x : String} (h : ordinary P x = true) : x ∉ memos := by
  intro hx
  unfold ordinary at h
  rw [Bool.and_eq_true, Bool.not_eq_true', List.contains_eq_mem, decide_eq_false_iff_not] at h
  exact h.1 hx

theorem ordinary_property {P : Program} {x : String} (h : ordinary P x = true) (cls : String) : P.property cls x = none := by
  unfold ordinary at h
  rw [Bool.and_eq_true, List.all_eq_true] at h
  unfold Program.property
  cases hc : P.class cls with
  | none => rfl
  | some d =>
    have := h.2 d (List.mem_of_find?_eq_some hc)
    exact Option.isNone_iff_eq_none.1 this

theorem no_method {P : Program} {x : String} (h : (P.classes.all fun d => (d.methods.lookup x).isNone) = true) (cls : String) :
    P.method cls x = none := by
  rw [List.all_eq_true] at h
  unfold Program.method
  cases hc : P.class cls with
  | none => rfl
  | some d =>
    have := h d (List.mem_of_find?_eq_some hc)
    exact Option.isNone_iff_eq_none.1 this

theorem Share.Object.ordinary {S : Share} {r : Nat} {o₀ o : Obj} (h : S.Object r o₀ o) {x : String} (hx : x ∉ memos) :
    o.attrs.lookup x = o₀.attrs.lookup x := by
  rcases h.attrs x with h | ⟨-, v, -, hv⟩
  · exact h
  · exact absurd (S.names r x v hv) hx

/-- Something is done with the object `r`. -/
theorem tells_get (S : Share) (r : Nat) {n : Nat} {f : Obj → R α} (a : Except PyErr α) (hn : S.old.heap[r]? = none → a = .error .attribute)
    (h : ∀ o₀ o, S.old.heap[r]? = some o₀ → S.Object r o₀ o → Tells S n (f o) a) : Tells S (n + 1) (R.get r >>= f) a := by
  intro K
  show Steady S _ K (n + 1) (.fetch r f)
  cases ho : S.old.heap[r]? with
  | none => exact .missing ho (hn ho).symm
  | some o₀ => exact .fetch ho fun o hr _ => h o₀ o ho hr _

/-- An attribute that is neither a property nor remembered by one. -/
theorem tells_getattr (S : Share) (P : Program) (n : Nat) {x : String} (hx : ordinary P x = true) (v : Val) :
    ∃ a, Tells S 2 (getattr (calls P n) v x) a := by
  rw [getattr.eq_def]
  split
  · next _ r =>
    cases ho : S.old.heap[r]? with
    | none => exact ⟨.error .attribute, tells_get S r (n := 1) _ (fun _ => rfl) fun o₀ o h => by rw [ho] at h; cases h⟩
    | some o₀ =>
      cases hl : o₀.attrs.lookup x with
      | some v =>
        refine ⟨.ok v, tells_get S r (n := 1) _ (fun h => by simp [ho] at h) fun p₀ o h hr => ?_⟩
        rw [ho] at h; cases h
        rw [hr.ordinary (ordinary_memo hx), hl]
        exact tells_pure _ _ _
      | none =>
        cases n with
        | zero =>
          refine ⟨.error .diverge, tells_get S r (n := 1) _ (fun h => by simp [ho] at h) fun p₀ o h hr => ?_⟩
          rw [ho] at h; cases h
          rw [hr.ordinary (ordinary_memo hx), hl]
          exact tells_raise _ _ _
        | succ n =>
          refine ⟨.error .attribute, tells_get S r (n := 1) _ (fun _ => rfl) fun p₀ o h hr => ?_⟩
          rw [ho] at h; cases h
          rw [hr.ordinary (ordinary_memo hx), hl]
          refine tells_get S r (n := 0) _ (fun _ => rfl) fun p₀ o h hr => ?_
          rw [ordinary_property hx]
          exact tells_raise _ _ _
  · exact ⟨_, tells_pure _ _ _⟩
  · exact ⟨_, tells_raise _ _ _⟩

theorem tells_still (S : Share) (m : M α) : ∃ a, Tells S 0 (still m) a := by
  unfold still
  split
  · exact ⟨_, tells_done _ _ _⟩
  · exact ⟨_, tells_raise _ _ _⟩

theorem tells_builtin (S : Share) (g : String) (hg : g = "str" ∨ g = "int") (v : Val) : ∃ a, Tells S 0 (builtin g [v]) a := by
  rw [builtin.eq_def]
  split
  all_goals first
    | exact ⟨_, tells_pure _ _ _⟩
    | exact ⟨_, tells_raise _ _ _⟩
    | (exfalso; simp at hg; done)
    | (rcases hg with hg | hg <;> exact absurd hg (by decide))

theorem tells_decode (S : Share) (P : Program) (n : Nat) (hP : (P.classes.all fun d => (d.methods.lookup "decode").isNone) = true) (v : Val)
    (s : String) : ∃ a, Tells S 1 (invoke (calls P n) v "decode" [.pv (.str s.toList)]) a := by
  cases v with
  | obj r =>
    show ∃ a, Tells S 1 ((calls P n).method r "decode" _) a
    cases n with
    | zero => exact ⟨_, tells_raise _ _ _⟩
    | succ n =>
      refine ⟨.error .attribute, tells_get S r (n := 0) _ (fun _ => rfl) fun o₀ o h hr => ?_⟩
      rw [no_method hP]
      exact tells_raise _ _ _
  | io k =>
    refine ⟨.error .attribute, fun K => .foul (fun σ => ?_) rfl⟩
    rfl
  | pv v =>
    rw [invoke.eq_def]
    split
    all_goals first
      | exact ⟨_, tells_raise _ _ _⟩
      | (rename_i heq _ _; cases heq; done)
      | (rename_i heq _; cases heq; done)
      | (rename_i heq; cases heq; done)
      | skip
    split
    · split
      · exact ⟨_, tells_pure _ _ _⟩
      · exact ⟨_, tells_raise _ _ _⟩
    · exact ⟨_, tells_raise _ _ _⟩
  | file b => exact ⟨_, tells_raise _ _ _⟩
  | list l => exact ⟨_, tells_raise _ _ _⟩

theorem bind_assoc {γ : Type} (p : R α) (f : α → R β) (g : β → R γ) : (p.bind f).bind g = p.bind fun a => (f a).bind g := by
  induction p with
  | done a => rfl
  | raise e => rfl
  | fetch r k ih => simp only [R.bind, ih]
  | store r x v k ih => simp only [R.bind, ih]
  | alloc c k ih => simp only [R.bind, ih]
  | stream b k ih => simp only [R.bind, ih]
  | io n m a k ih => simp only [R.bind, ih]
  | size n k ih => simp only [R.bind, ih]

theorem bind_done (p : R α) : p.bind R.done = p := by
  induction p with
  | done a => rfl
  | raise e => rfl
  | fetch r k ih => simp only [R.bind, ih]
  | store r x v k ih => simp only [R.bind, ih]
  | alloc c k ih => simp only [R.bind, ih]
  | stream b k ih => simp only [R.bind, ih]
  | io n m a k ih => simp only [R.bind, ih]
  | size n k ih => simp only [R.bind, ih]

theorem one_bind (p : R α) (f : List α → R β) : ((p >>= fun v => (pure [] : R (List α)) >>= fun l => pure (v :: l)) >>= f) = p >>= fun v => f [v] := by
  exact bind_assoc p _ f

/-- Such an expression has one value, whatever the others remember meanwhile. -/
theorem tells_eval (S : Share) (P : Program) (n : Nat) (env : Env) : ∀ e : Expr, plain P e = true → ∃ a, Tells S (turns e) (eval P (calls P n) env e) a := by
  intro e
  induction e using plain.induct with
  | case1 => intro _; rw [eval]; exact ⟨_, tells_pure _ _ _⟩
  | case2 => intro _; rw [eval]; exact ⟨_, tells_pure _ _ _⟩
  | case3 => intro _; rw [eval]; exact ⟨_, tells_pure _ _ _⟩
  | case4 => intro _; rw [eval]; exact ⟨_, tells_pure _ _ _⟩
  | case5 =>
    intro _
    rw [eval]
    split
    · exact ⟨_, tells_pure _ _ _⟩
    · exact ⟨_, tells_raise _ _ _⟩
  | case6 =>
    intro _
    rw [eval]
    split
    · split
      · exact ⟨_, tells_pure _ _ _⟩
      · exact ⟨_, tells_raise _ _ _⟩
    · exact ⟨_, tells_raise _ _ _⟩
  | case7 e x he ih =>
    intro h
    rw [plain, Bool.and_eq_true] at h
    rw [eval]
    exact tells_bind (ih h.2) fun v => tells_getattr S P n h.1 v
    all_goals exact he
  | case8 e ih =>
    intro h
    rw [plain] at h
    rw [eval, evals, evals]
    rw [one_bind]
    exact tells_bind (m := 0) (ih h) fun v => tells_builtin S _ (.inl rfl) v
  | case9 e ih =>
    intro h
    rw [plain] at h
    rw [eval, evals, evals]
    rw [one_bind]
    exact tells_bind (m := 0) (ih h) fun v => tells_builtin S _ (.inr rfl) v
  | case10 e s ih =>
    intro h
    rw [plain, Bool.and_eq_true] at h
    rw [eval]
    rw [evals, evals, eval]
    exact tells_bind (ih h.2) fun v => tells_decode S P n h.1 v s
    all_goals (intros; simp_all)
  | case11 op a b iha ihb =>
    intro h
    rw [plain, Bool.and_eq_true] at h
    rw [eval]
    exact tells_bind (iha h.1) fun v => tells_bind (m := 0) (ihb h.2) fun w => tells_still S _
  | case12 op a b iha ihb =>
    intro h
    rw [plain, Bool.and_eq_true] at h
    rw [eval]
    exact tells_bind (iha h.1) fun v => tells_bind (m := 0) (ihb h.2) fun w => tells_still S _
  | case13 a b iha ihb =>
    intro h
    rw [plain, Bool.and_eq_true] at h
    rw [eval]
    refine tells_bind (iha h.1) fun v => ?_
    split
    · exact ihb h.2
    · exact ⟨_, tells_pure _ _ _⟩
  | case14 a b iha ihb =>
    intro h
    rw [plain, Bool.and_eq_true] at h
    rw [eval]
    refine tells_bind (iha h.1) fun v => ?_
    split
    · exact ⟨_, tells_pure _ _ _⟩
    · exact ihb h.2
  | case15 e ih =>
    intro h
    rw [plain] at h
    rw [eval]
    exact tells_bind (m := 0) (ih h) fun v => ⟨_, tells_pure _ _ _⟩
  | case16 t a b iht iha ihb =>
    intro h
    rw [plain, Bool.and_eq_true, Bool.and_eq_true] at h
    rw [eval, turns, Nat.add_assoc]
    refine tells_bind (iht h.1.1) fun v => ?_
    split
    · exact tells_later (iha h.1.2) (by omega)
    · exact tells_later (ihb h.2) (by omega)
  | case17 e =>
    intro h
    unfold plain at h
    simp_all

/-- `if hasattr(self, "m"): return self.m`, and the rest. -/
def guarded (m : String) (rest : List Stmt) : Function :=
  ⟨["self"], .if_ (.call (.global "hasattr") [.name "self", .str m]) [.return_ (.attr (.name "self") m)] [] :: rest⟩

/-- `self.m = e` and `return getattr(self, "m", None)`. -/
def keeping (m : String) (e : Expr) : List Stmt :=
  [.setattr (.name "self") m e, .return_ (.call (.global "getattr") [.name "self", .str m, .none])]

/-- The attribute in which a property remembers its value, and the rest of the property. -/
def guard : Function → Option (String × List Stmt)
  | ⟨["self"], .if_ (.call (.global "hasattr") [.name "self", .str m]) [.return_ (.attr (.name "self") m')] [] :: rest⟩ =>
    if m' = m then some (m, rest) else none
  | _ => none

/-- The expression that is remembered, if there is nothing else. -/
def kept (m : String) : List Stmt → Option Expr
  | [.setattr (.name "self") m' e, .return_ (.call (.global "getattr") [.name "self", .str m'', .none])] => if m' = m ∧ m'' = m then some e else none
  | _ => none

theorem guard_eq {f : Function} {m : String} {rest : List Stmt} (h : guard f = some (m, rest)) : f = guarded m rest := by
  unfold guard at h
  split at h
  · split at h
    · next e =>
      cases h
      subst e
      rfl
    · cases h
  · cases h

theorem kept_eq {m : String} {l : List Stmt} {e : Expr} (h : kept m l = some e) : l = keeping m e := by
  unfold kept at h
  split at h
  · split at h
    · next e =>
      cases h
      obtain ⟨rfl, rfl⟩ := e
      rfl
    · cases h
  · cases h

/-- What a property remembers, if it does nothing else than calculating it from other attributes. -/
def recipe (P : Program) (f : Function) : Option (String × Expr) :=
  match guard f with
  | some (m, rest) =>
    match kept m rest with
    | some e => if plain P e then some (m, e) else none
    | none => none
  | none => none

theorem recipe_eq {P : Program} {f : Function} {m : String} {e : Expr} (h : recipe P f = some (m, e)) : f = guarded m (keeping m e) ∧ plain P e = true := by
  unfold recipe at h
  split at h
  · next m' rest hg =>
    split at h
    · next e' hk =>
      split at h
      · next hp =>
        cases h
        exact ⟨by rw [guard_eq hg, kept_eq hk], hp⟩
      · cases h
    · cases h
  · cases h

theorem lookup_mem {γ : Type} {x : String} {v : γ} : ∀ {l : List (String × γ)}, l.lookup x = some v → (x, v) ∈ l
  | (y, w) :: l, h => by
    rw [List.lookup_cons] at h
    split at h
    · next e =>
      cases h
      have : x = y := by simpa using e
      subst this
      exact List.mem_cons_self
    · exact List.mem_cons_of_mem _ (lookup_mem h)

/-- The properties of each class are such that they can be used by several threads: each remembers its value, in an attribute of its own,
and if its value is not calculated from other attributes, in at most `B` steps, then it is in the list. -/
def _root_.Dmr.Py.Program.shareable (P : Program) (streamed : List (String × String × String)) (B : Nat) : Bool :=
  P.classes.all fun d => d.properties.all fun p =>
    match guard p.2 with
    | some (m, _) => memos.contains m && (d.properties.all fun q => q.1 == p.1 || ((guard q.2).all fun g => g.1 != m)) &&
        ((recipe P p.2).any (fun e => decide (turns e.2 ≤ B)) || streamed.contains (d.name, p.1, m))
    | none => false

theorem shareable_at {P : Program} {streamed : List (String × String × String)} {B : Nat} (hP : P.shareable streamed B = true) {cls x : String}
    {f : Function} (hf : P.property cls x = some f) : ∃ m rest, guard f = some (m, rest) ∧ m ∈ memos ∧
      (∀ y g rest', P.property cls y = some g → guard g = some (m, rest') → g = f) ∧
      ((∃ e, recipe P f = some (m, e) ∧ turns e ≤ B) ∨ (cls, x, m) ∈ streamed) := by
  unfold Program.property at hf
  cases hc : P.class cls with
  | none => rw [hc] at hf; cases hf
  | some d =>
    rw [hc] at hf
    have hd : d ∈ P.classes := List.mem_of_find?_eq_some hc
    have hn : d.name = cls := by
      have := List.find?_some hc
      simpa using this
    have hm : (x, f) ∈ d.properties := lookup_mem hf
    unfold Program.shareable at hP
    rw [List.all_eq_true] at hP
    have := hP d hd
    rw [List.all_eq_true] at this
    have := this _ hm
    dsimp only at this
    split at this
    · next m rest hg =>
      rw [Bool.and_eq_true, Bool.and_eq_true, Bool.or_eq_true, List.all_eq_true] at this
      obtain ⟨⟨h1, h2⟩, h3⟩ := this
      refine ⟨m, rest, hg, by simpa using h1, fun y g rest' hy hg' => ?_, ?_⟩
      · unfold Program.property at hy
        rw [hc] at hy
        have := h2 _ (lookup_mem hy)
        rw [Bool.or_eq_true] at this
        rcases this with h | h
        · have : y = x := by simpa using h
          subst this
          exact Option.some.inj (hy.symm.trans hf)
        · rw [hg'] at h
          simp at h
      · rcases h3 with h | h
        · left
          cases hr : recipe P f with
          | none => rw [hr] at h; cases h
          | some e =>
            rw [hr] at h
            have e1 : e.1 = m := by
              unfold recipe at hr
              rw [hg] at hr
              dsimp only at hr
              split at hr
              · split at hr
                · cases hr; rfl
                · cases hr
              · cases hr
            refine ⟨e.2, by rw [← e1], by simpa using h⟩
        · right
          rw [hn] at h
          simpa using h
    · cases this

/-- Running `guarded m rest`. -/
theorem call_guarded (P : Program) (c : Calls) (m : String) (rest : List Stmt) (r : Nat) :
    call P c (guarded m rest) [.obj r] = .fetch r fun o =>
      if (o.attrs.lookup m).isSome then getattr c (.obj r) m
      else (execs P c rest [("self", .obj r)]).bind fun f => match f with
        | .ret v => .done v
        | _ => .done (.pv .none) := by
  unfold call guarded
  dsimp only [List.length_cons, List.length_nil, List.zip_cons_cons, List.cons_append, List.nil_append, List.replicate, List.zip_nil_left]
  have h : ∀ l, l = [("self", Val.obj r)] → eval P c l (.name "self") = .done (.obj r) := by
    intro l hl; subst hl; rw [eval]; rfl
  have hb : builtin "hasattr" [.obj r, .pv (.str m.toList)] = .fetch r fun o => .done (.pv (.bool (o.attrs.lookup m).isSome)) := by
    rw [builtin]
    simp only [String.ofList_toList]
    rfl
  rw [execs, exec, eval, evals, evals, evals, h _ rfl, eval]
  show ((((builtin "hasattr" [.obj r, .pv (.str m.toList)]).bind _).bind _).bind _) = _
  rw [hb]
  simp only [R.bind]
  congr 1
  funext o
  by_cases ho : (o.attrs.lookup m).isSome = true
  · rw [if_pos ho, if_pos (show truthy (.pv (.bool (o.attrs.lookup m).isSome)) = true from ho), execs, exec, eval, h _ rfl]
    · show ((((getattr c (.obj r) m).bind fun v => R.done (Flow.ret v)).bind _).bind _).bind _ = _
      simp only [bind_assoc, R.bind]
      exact bind_done _
    · nofun
  · rw [if_neg ho, if_neg (show ¬truthy (.pv (.bool (o.attrs.lookup m).isSome)) = true from ho), execs]
    rfl

/-- Running `keeping m e`. -/
theorem execs_keeping (P : Program) (c : Calls) (m : String) (e : Expr) (r : Nat) :
    execs P c (keeping m e) [("self", .obj r)] = (eval P c [("self", .obj r)] e).bind fun v =>
      .store r m v (.fetch r fun o => .done (.ret ((o.attrs.lookup m).getD (.pv .none)))) := by
  have h : ∀ l, l = [("self", Val.obj r)] → eval P c l (.name "self") = .done (.obj r) := by
    intro l hl; subst hl; rw [eval]; rfl
  have hb : builtin "getattr" [.obj r, .pv (.str m.toList), .pv .none] = .fetch r fun o => .done ((o.attrs.lookup m).getD (.pv .none)) := by
    rw [builtin]
    simp only [String.ofList_toList]
    rfl
  unfold keeping
  rw [execs, exec]
  show R.bind (R.bind _ _) _ = _
  rw [bind_assoc]
  congr 1
  funext v
  rw [h _ rfl]
  show R.store r m v ((execs P c _ _) ) = _
  congr 1
  rw [execs, exec, eval, evals, evals, evals, evals, h _ rfl, eval, eval]
  show ((((builtin "getattr" [.obj r, .pv (.str m.toList), .pv .none]).bind _).bind _)) = _
  rw [hb]
  rfl

/-- What the others may remember: the values of the properties, calculated in the memory as it was in the beginning. -/
def share (P : Program) {streamed : List (String × String × String)} {B : Nat} (hP : P.shareable streamed B = true) (n : Nat) (σ₀ : State) : Share where
  old := σ₀
  V r m v := ∃ o x f e, σ₀.heap[r]? = some o ∧ P.property o.cls x = some f ∧ recipe P f = some (m, e) ∧
    ((eval P (calls P n) [("self", .obj r)] e).run σ₀).result = .ok v
  names := by
    rintro r m v ⟨o, x, f, e, -, hf, hr, -⟩
    obtain ⟨m', rest, hg, hm, -, -⟩ := shareable_at hP hf
    obtain ⟨rfl, -⟩ := recipe_eq hr
    have : guard (guarded m (keeping m e)) = some (m, keeping m e) := by simp [guard, guarded]
    rw [this] at hg
    cases hg
    exact hm
  unique := by
    rintro r m v w ⟨o, x, f, e, ho, hf, hr, hv⟩ ⟨o', x', f', e', ho', hf', hr', hv'⟩
    rw [ho] at ho'
    cases ho'
    obtain ⟨m', rest, hg, hm, hu, -⟩ := shareable_at hP hf
    have e1 : guard f = some (m, keeping m e) := by rw [(recipe_eq hr).1]; simp [guard, guarded]
    have e2 : guard f' = some (m, keeping m e') := by rw [(recipe_eq hr').1]; simp [guard, guarded]
    rw [e1] at hg
    cases hg
    have := hu x' f' _ hf' e2
    subst this
    rw [hr] at hr'
    cases hr'
    rw [hv] at hv'
    cases hv'
    rfl

theorem none_known (σ : State) : Known.true (fun _ _ => False) σ := fun _ _ h => h.elim

/-- An attribute, or a property that is calculated from attributes or has been remembered. -/
theorem tells_access (P : Program) {streamed : List (String × String × String)} {B : Nat} (hP : P.shareable streamed B = true) (n : Nat) (σ₀ : State)
    (r : Nat) (x : String) (hx : x ∉ memos)
    (hs : ∀ o m, σ₀.heap[r]? = some o → (o.cls, x, m) ∈ streamed → (o.attrs.lookup m).isSome) :
    ∃ a, Tells (share P hP (n - 1) σ₀) (B + 5) (getattr (calls P n) (.obj r) x) a := by
  rw [getattr]
  cases ho : σ₀.heap[r]? with
  | none => exact ⟨.error .attribute, tells_get _ r (n := B + 4) _ (fun _ => rfl) fun o₀ o h => by simp [share, ho] at h⟩
  | some o₀ =>
    have ho' : (share P hP (n - 1) σ₀).old.heap[r]? = some o₀ := ho
    have hno : ∀ {γ : Prop}, (share P hP (n - 1) σ₀).old.heap[r]? = none → γ := fun h => by rw [ho'] at h; cases h
    have here : ∀ {p₀}, (share P hP (n - 1) σ₀).old.heap[r]? = some p₀ → p₀ = o₀ := fun h => Option.some.inj (h.symm.trans ho')
    cases hl : o₀.attrs.lookup x with
    | some v =>
      refine ⟨.ok v, tells_get _ r (n := B + 4) _ hno fun p₀ o h hr => ?_⟩
      cases here h
      rw [hr.ordinary hx, hl]
      exact tells_pure _ _ _
    | none =>
      cases n with
      | zero =>
        refine ⟨.error .diverge, tells_get _ r (n := B + 4) _ hno fun p₀ o h hr => ?_⟩
        cases here h
        rw [hr.ordinary hx, hl]
        exact tells_raise _ _ _
      | succ k =>
        suffices h : ∃ a, Tells (share P hP k σ₀) (B + 3) (match P.property o₀.cls x with
            | some f => call P (calls P k) f [.obj r]
            | none => R.raise .attribute) a by
          obtain ⟨a, ha⟩ := h
          refine ⟨a, tells_get _ r (n := B + 4) _ hno fun p₀ o h hr => ?_⟩
          cases here h
          rw [hr.ordinary hx, hl]
          refine tells_get _ r (n := B + 3) _ hno fun p₀ o h hr => ?_
          cases here h
          rw [hr.cls]
          exact ha
        cases hf : P.property o₀.cls x with
        | none => exact ⟨_, tells_raise _ _ _⟩
        | some f =>
          dsimp only
          obtain ⟨m, rest, hg, hm, hu, hk⟩ := shareable_at hP hf
          have hfe := guard_eq hg
          cases hlm : o₀.attrs.lookup m with
          | some v =>
            refine ⟨.ok v, ?_⟩
            rw [hfe, call_guarded]
            have same : ∀ {o}, (share P hP k σ₀).Object r o₀ o → o.attrs.lookup m = some v := by
              intro o hr
              rcases hr.attrs m with h | ⟨h, -⟩
              · rw [h, hlm]
              · rw [hlm] at h; cases h
            intro K
            refine .fetch ho' fun o hr _ => ?_
            rw [if_pos (by rw [same hr]; rfl), getattr]
            refine .fetch ho' fun o hr _ => ?_
            have e : (match o.attrs.lookup m with
                | some v => pure v
                | none => (calls P k).property r m) = R.done v := by rw [same hr]; rfl
            show Steady _ _ _ _ (match o.attrs.lookup m with
                | some v => pure v
                | none => (calls P k).property r m)
            rw [e]
            exact .done rfl
          | none =>
            rcases hk with ⟨e, hr, hB⟩ | hk
            · obtain ⟨a, ha⟩ := tells_eval (share P hP k σ₀) P k [("self", .obj r)] e (recipe_eq hr).2
              have hv : ∀ v, (share P hP k σ₀).V r m v → a = .ok v := by
                rintro v ⟨o', x', f', e', ho2, hf', hr', hv'⟩
                rw [ho] at ho2
                cases ho2
                have : guard f' = some (m, keeping m e') := by rw [(recipe_eq hr').1]; simp [guard, guarded]
                cases hu x' f' _ hf' this
                rw [hr] at hr'
                cases hr'
                have := (ha (fun _ _ => False)).run (share P hP k σ₀).start (none_known _)
                exact this.symm.trans hv'
              have hrest : rest = keeping m e := by
                have := (recipe_eq hr).1
                rw [hfe] at this
                unfold guarded at this
                injection this with _ h
                injection h
              refine ⟨a, ?_⟩
              rw [hfe, hrest, call_guarded]
              have found : ∀ {o : Obj}, (share P hP k σ₀).Object r o₀ o → (o.attrs.lookup m).isSome = true →
                  ∃ v, o.attrs.lookup m = some v ∧ a = .ok v := by
                intro o hr' hm'
                rcases hr'.attrs m with h | ⟨-, v, h, hV⟩
                · rw [h, hlm] at hm'; cases hm'
                · exact ⟨v, h, hv v hV⟩
              intro K
              refine .fetch ho' fun o hr' _ => ?_
              by_cases hm' : (o.attrs.lookup m).isSome = true
              · rw [if_pos hm', getattr]
                refine .fetch ho' fun o' hr' hk => ?_
                obtain ⟨v, h, hav⟩ := found hr' (hk m (.inr ⟨rfl, hm'⟩))
                have e : (match o'.attrs.lookup m with
                    | some v => pure v
                    | none => (calls P k).property r m) = R.done v := by rw [h]; rfl
                show Steady _ _ _ _ (match o'.attrs.lookup m with
                    | some v => pure v
                    | none => (calls P k).property r m)
                rw [e]
                exact .done hav.symm
              · rw [if_neg hm', execs_keeping, bind_assoc]
                refine ((ha _).bind (m := 2) (fun v K' hK hav => ?_) fun e h => h).later (by omega)
                refine .store ho' hlm ⟨o₀, x, f, e, ho, hf, hr, ?_⟩ (.fetch ho' fun o' hr' hk => ?_)
                · have := (ha (fun _ _ => False)).run (share P hP k σ₀).start (none_known _)
                  exact this.trans hav.symm
                · obtain ⟨w, h, haw⟩ := found hr' (hk m (.inr ⟨rfl, rfl⟩))
                  have e : R.done ((o'.attrs.lookup m).getD (.pv .none)) = R.done w := by rw [h]; rfl
                  show Steady _ _ _ _ (R.done ((o'.attrs.lookup m).getD (.pv .none)))
                  rw [e]
                  exact .done haw.symm
            · have := hs o₀ m ho hk
              rw [hlm] at this
              cases this

end Dmr.Py.Threads
