import Verif.Py.ThreadsExec
/-
Threads that take turns: what one of them does to the memory does not concern the others.
-/

set_option autoImplicit false

namespace Dmr.Py.Threads

variable {α β : Type}

/-- The memory `σ` of a thread is in the memory `τ`. -/
structure Mem (ρ : Ren) (σ τ : State) : Prop where
  heap : σ.heap.length = ρ.obj.length
  objs : ∀ r s : Nat, ρ.obj[r]? = some s → ∃ o p, σ.heap[r]? = some o ∧ τ.heap[s]? = some p ∧ ObjCorr ρ o p
  streams : σ.streams.length = ρ.io.length
  ios : ∀ r s : Nat, ρ.io[r]? = some s → ∃ x, σ.streams[r]? = some x ∧ τ.streams[s]? = some x
  obj : ρ.obj.Nodup
  io : ρ.io.Nodup

/-- From `τ` to `τ'`, nothing is changed but what belongs to `ρ`. -/
structure Only (ρ : Ren) (τ τ' : State) : Prop where
  heap : τ.heap.length ≤ τ'.heap.length
  objs : ∀ s, s < τ.heap.length → s ∉ ρ.obj → τ'.heap[s]? = τ.heap[s]?
  streams : τ.streams.length ≤ τ'.streams.length
  ios : ∀ s, s < τ.streams.length → s ∉ ρ.io → τ'.streams[s]? = τ.streams[s]?

theorem Only.refl (ρ : Ren) (τ : State) : Only ρ τ τ := ⟨Nat.le_refl _, fun _ _ _ => rfl, Nat.le_refl _, fun _ _ _ => rfl⟩

/-- What is new in `ρ'` was not there in `τ`. -/
structure Fresh (ρ ρ' : Ren) (τ : State) : Prop where
  obj : ∀ s ∈ ρ'.obj, s ∈ ρ.obj ∨ τ.heap.length ≤ s
  io : ∀ s ∈ ρ'.io, s ∈ ρ.io ∨ τ.streams.length ≤ s

theorem Fresh.refl (ρ : Ren) (τ : State) : Fresh ρ ρ τ := ⟨fun _ h => .inl h, fun _ h => .inl h⟩

/-- What a step leads to. -/
def Stepped (Q : Ren → α → β → Prop) (ρ : Ren) (τ : State) (x : R α × State) (y : R β × State) : Prop :=
  ∃ ρ', ρ.Le ρ' ∧ Sim Q ρ' x.1 y.1 ∧ Mem ρ' x.2 y.2 ∧ Only ρ τ y.2 ∧ Fresh ρ ρ' τ

theorem set_same {γ : Type} {l : List γ} {i : Nat} {a : γ} (h : l[i]? = some a) : l.set i a = l := by
  apply List.ext_getElem?
  intro j
  rw [List.getElem?_set]
  split
  · rename_i e
    subst e
    have := (List.getElem?_eq_some_iff.1 h).1
    rw [if_pos this, h]
  · rfl

/-- A method of a stream depends on that stream only, and gives a plain value. -/
theorem io_shape (m : String) (args : List Val) : ∃ r : Rd PyVal, ∀ (n : Nat) (σ : State) (s : Stream), σ.streams[n]? = some s →
    (ioMethod n m args).run σ = after r s (fun e s' => .raise e ⟨σ.heap, σ.streams.set n s'⟩) (fun v s' => .ok (Val.pv v) ⟨σ.heap, σ.streams.set n s'⟩) := by
  have key : ∀ {γ : Type} (r : Rd γ) (f : γ → PyVal), ∃ r' : Rd PyVal, ∀ (n : Nat) (σ : State) (s : Stream), σ.streams[n]? = some s →
      M.run (do let a ← onStream n r; return Val.pv (f a)) σ =
        after r' s (fun e s' => .raise e ⟨σ.heap, σ.streams.set n s'⟩) (fun v s' => .ok (Val.pv v) ⟨σ.heap, σ.streams.set n s'⟩) := by
    intro γ r f
    refine ⟨fun s => match r s with | (.ok a, s') => (.ok (f a), s') | (.error e, s') => (.error e, s'), fun n σ s h => ?_⟩
    show Out.bind (onStream n r σ) _ = _
    unfold onStream after
    rw [h]
    dsimp only
    rcases r s with ⟨e | a, s'⟩ <;> rfl
  have bad : ∀ e : PyErr, ∃ r' : Rd PyVal, ∀ (n : Nat) (σ : State) (s : Stream), σ.streams[n]? = some s →
      M.run (Py.raise e : M Val) σ = after r' s (fun e s' => .raise e ⟨σ.heap, σ.streams.set n s'⟩) (fun v s' => .ok (Val.pv v) ⟨σ.heap, σ.streams.set n s'⟩) := by
    intro e
    refine ⟨fun s => (.error e, s), fun n σ s h => ?_⟩
    show Out.raise e σ = Out.raise e ⟨σ.heap, σ.streams.set n s⟩
    rw [set_same h]
  simp only [ioMethod.eq_def]
  split
  all_goals first | exact key _ _ | exact bad _ | skip
  split
  · exact bad _
  · exact key _ fun _ => .none

theorem step_sim {Q : Ren → α → β → Prop} {ρ : Ren} {p : R α} {q : R β} {σ τ : State} (h : Sim Q ρ p q) (hm : Mem ρ σ τ) :
    Stepped Q ρ τ (p.step σ) (q.step τ) := by
  cases h with
  | done h => exact ⟨ρ, Ren.Le.refl ρ, .done h, hm, Only.refl ρ τ, Fresh.refl ρ τ⟩
  | raise e => exact ⟨ρ, Ren.Le.refl ρ, .raise e, hm, Only.refl ρ τ, Fresh.refl ρ τ⟩
  | fetch h hk =>
    obtain ⟨o, p, ho, hp, hop⟩ := hm.objs _ _ h
    rw [R.step, R.step]
    unfold Py.fetch M.run
    dsimp only
    rw [ho, hp]
    exact ⟨ρ, Ren.Le.refl ρ, hk ρ (Ren.Le.refl ρ) o p hop, hm, Only.refl ρ τ, Fresh.refl ρ τ⟩
  | @store _ r s x v w k l h hv hk =>
    obtain ⟨o, p, ho, hp, hop⟩ := hm.objs _ _ h
    rw [R.step, R.step]
    unfold Py.store M.run
    dsimp only
    rw [ho, hp]
    refine ⟨ρ, Ren.Le.refl ρ, hk, ⟨?_, ?_, hm.streams, hm.ios, hm.obj, hm.io⟩, ⟨?_, ?_, Nat.le_refl _, fun _ _ _ => rfl⟩, Fresh.refl ρ τ⟩
    · show (σ.heap.set r _).length = _
      rw [List.length_set]; exact hm.heap
    · intro r' s' h'
      by_cases e : r = r'
      · subst e
        rw [h] at h'
        cases h'
        refine ⟨⟨o.cls, upsert x v o.attrs⟩, ⟨p.cls, upsert x w p.attrs⟩, ?_, ?_, ⟨hop.cls, hop.attrs.upsert x hv⟩⟩
        · show (σ.heap.set r _)[r]? = _
          rw [List.getElem?_set_self (List.getElem?_eq_some_iff.1 ho).1]
        · show (τ.heap.set s _)[s]? = _
          rw [List.getElem?_set_self (List.getElem?_eq_some_iff.1 hp).1]
      · obtain ⟨o', p', ho', hp', hop'⟩ := hm.objs _ _ h'
        refine ⟨o', p', ?_, ?_, hop'⟩
        · show (σ.heap.set r _)[r']? = _
          rw [List.getElem?_set_ne e]; exact ho'
        · show (τ.heap.set s _)[s']? = _
          rw [List.getElem?_set_ne]
          · exact hp'
          · rintro rfl
            exact e ((List.getElem?_inj (List.getElem?_eq_some_iff.1 h).1 hm.obj).1 (h.trans h'.symm))
    · show τ.heap.length ≤ (τ.heap.set s _).length
      rw [List.length_set]; exact Nat.le_refl _
    · intro s' _ hs
      show (τ.heap.set s _)[s']? = _
      rw [List.getElem?_set_ne]
      rintro rfl
      exact hs (List.mem_of_getElem? h)
  | @alloc _ c k l hk =>
    refine ⟨⟨ρ.obj ++ [τ.heap.length], ρ.io⟩, le_obj ρ _, ?_, ⟨?_, ?_, hm.streams, hm.ios, ?_, hm.io⟩, ⟨?_, ?_, Nat.le_refl _, fun _ _ _ => rfl⟩, ⟨?_, fun _ h => .inl h⟩⟩
    · show Sim Q _ (k σ.heap.length) (l τ.heap.length)
      rw [hm.heap]
      exact hk ρ (Ren.Le.refl ρ) _
    · show (σ.heap ++ [_]).length = (ρ.obj ++ [_]).length
      rw [List.length_append, List.length_append, hm.heap]; rfl
    · intro r s h
      show ∃ o p, (σ.heap ++ [⟨c, []⟩])[r]? = some o ∧ (τ.heap ++ [⟨c, []⟩])[s]? = some p ∧ _
      dsimp only at h
      rw [List.getElem?_append] at h
      split at h
      · obtain ⟨o, p, ho, hp, hop⟩ := hm.objs _ _ h
        exact ⟨o, p, by rw [List.getElem?_append_left (List.getElem?_eq_some_iff.1 ho).1]; exact ho,
          by rw [List.getElem?_append_left (List.getElem?_eq_some_iff.1 hp).1]; exact hp, hop.mono (le_obj ρ _)⟩
      · rename_i hlt
        have e : r = ρ.obj.length := by
          have := (List.getElem?_eq_some_iff.1 h).1
          simp at this
          omega
        subst e
        simp at h
        subst h
        exact ⟨⟨c, []⟩, ⟨c, []⟩, by rw [← hm.heap]; simp, by simp, ⟨rfl, .nil⟩⟩
    · show (ρ.obj ++ [_]).Nodup
      rw [List.nodup_append]
      refine ⟨hm.obj, by simp, ?_⟩
      intro a ha b hb e
      obtain ⟨i, hi⟩ := List.getElem?_of_mem ha
      obtain ⟨o, p, _, hp, _⟩ := hm.objs _ _ hi
      have := (List.getElem?_eq_some_iff.1 hp).1
      simp at hb
      omega
    · show τ.heap.length ≤ (τ.heap ++ [_]).length
      simp
    · intro s hs _
      show (τ.heap ++ [_])[s]? = _
      rw [List.getElem?_append_left hs]
    · intro s hs
      rcases List.mem_append.1 hs with h | h
      · exact .inl h
      · simp at h
        exact .inr (by omega)
  | @stream _ b k l hk =>
    refine ⟨⟨ρ.obj, ρ.io ++ [τ.streams.length]⟩, le_io ρ _, ?_, ⟨hm.heap, ?_, ?_, ?_, hm.obj, ?_⟩, ⟨Nat.le_refl _, fun _ _ _ => rfl, ?_, ?_⟩, ⟨fun _ h => .inl h, ?_⟩⟩
    · show Sim Q _ (k σ.streams.length) (l τ.streams.length)
      rw [hm.streams]
      exact hk ρ (Ren.Le.refl ρ) _
    · intro r s h
      obtain ⟨o, p, ho, hp, hop⟩ := hm.objs _ _ h
      exact ⟨o, p, ho, hp, hop.mono (le_io ρ _)⟩
    · show (σ.streams ++ [_]).length = (ρ.io ++ [_]).length
      rw [List.length_append, List.length_append, hm.streams]; rfl
    · intro r s h
      show ∃ x, (σ.streams ++ [Stream.new b])[r]? = some x ∧ (τ.streams ++ [Stream.new b])[s]? = some x
      dsimp only at h
      rw [List.getElem?_append] at h
      split at h
      · obtain ⟨o, ho, hp⟩ := hm.ios _ _ h
        exact ⟨o, by rw [List.getElem?_append_left (List.getElem?_eq_some_iff.1 ho).1]; exact ho,
          by rw [List.getElem?_append_left (List.getElem?_eq_some_iff.1 hp).1]; exact hp⟩
      · rename_i hlt
        have e : r = ρ.io.length := by
          have := (List.getElem?_eq_some_iff.1 h).1
          simp at this
          omega
        subst e
        simp at h
        subst h
        exact ⟨Stream.new b, by rw [← hm.streams]; simp, by simp⟩
    · show (ρ.io ++ [_]).Nodup
      rw [List.nodup_append]
      refine ⟨hm.io, by simp, ?_⟩
      intro a ha b hb e
      obtain ⟨i, hi⟩ := List.getElem?_of_mem ha
      obtain ⟨o, _, hp⟩ := hm.ios _ _ hi
      have := (List.getElem?_eq_some_iff.1 hp).1
      simp at hb
      omega
    · show τ.streams.length ≤ (τ.streams ++ [_]).length
      simp
    · intro s hs _
      show (τ.streams ++ [_])[s]? = _
      rw [List.getElem?_append_left hs]
    · intro s hs
      rcases List.mem_append.1 hs with h | h
      · exact .inl h
      · simp at h
        exact .inr (by omega)
  | @io _ r s m a k l h hk =>
    obtain ⟨x, hx, hy⟩ := hm.ios _ _ h
    obtain ⟨rd, hrd⟩ := io_shape m (a.map .pv)
    rw [R.step, R.step, hrd _ _ _ hx, hrd _ _ _ hy]
    have both : ∀ x', Mem ρ ⟨σ.heap, σ.streams.set r x'⟩ ⟨τ.heap, τ.streams.set s x'⟩ ∧ Only ρ τ ⟨τ.heap, τ.streams.set s x'⟩ := by
      intro x'
      refine ⟨⟨hm.heap, hm.objs, ?_, ?_, hm.obj, hm.io⟩, ⟨Nat.le_refl _, fun _ _ _ => rfl, ?_, ?_⟩⟩
      · show (σ.streams.set r _).length = _
        rw [List.length_set]; exact hm.streams
      · intro r' s' h'
        show ∃ y, (σ.streams.set r x')[r']? = some y ∧ (τ.streams.set s x')[s']? = some y
        by_cases e : r = r'
        · subst e
          rw [h] at h'
          cases h'
          exact ⟨x', List.getElem?_set_self (List.getElem?_eq_some_iff.1 hx).1, List.getElem?_set_self (List.getElem?_eq_some_iff.1 hy).1⟩
        · obtain ⟨y, hy1, hy2⟩ := hm.ios _ _ h'
          refine ⟨y, ?_, ?_⟩
          · rw [List.getElem?_set_ne e]; exact hy1
          · rw [List.getElem?_set_ne]
            · exact hy2
            · rintro rfl
              exact e ((List.getElem?_inj (List.getElem?_eq_some_iff.1 h).1 hm.io).1 (h.trans h'.symm))
      · show τ.streams.length ≤ (τ.streams.set s _).length
        rw [List.length_set]; exact Nat.le_refl _
      · intro s' _ hs
        show (τ.streams.set s _)[s']? = _
        rw [List.getElem?_set_ne]
        rintro rfl
        exact hs (List.mem_of_getElem? h)
    unfold after
    rcases rd x with ⟨e | v, x'⟩
    · exact ⟨ρ, Ren.Le.refl ρ, .raise e, (both x').1, (both x').2, Fresh.refl ρ τ⟩
    · exact ⟨ρ, Ren.Le.refl ρ, hk v, (both x').1, (both x').2, Fresh.refl ρ τ⟩
  | @size _ r s k l h hk =>
    obtain ⟨x, hx, hy⟩ := hm.ios _ _ h
    rw [R.step, R.step]
    unfold lengthOf M.run
    dsimp only
    rw [hx, hy]
    exact ⟨ρ, Ren.Le.refl ρ, hk _, hm, Only.refl ρ τ, Fresh.refl ρ τ⟩

/-- What another thread does leaves the memory of a thread as it is. -/
theorem Mem.keep {ρ ρ' : Ren} {σ τ τ' : State} (h : Mem ρ σ τ) (o : Only ρ' τ τ') (d1 : ∀ s ∈ ρ.obj, s ∉ ρ'.obj) (d2 : ∀ s ∈ ρ.io, s ∉ ρ'.io) : Mem ρ σ τ' := by
  refine ⟨h.heap, fun r s hr => ?_, h.streams, fun r s hr => ?_, h.obj, h.io⟩
  · obtain ⟨a, b, ha, hb, hab⟩ := h.objs r s hr
    exact ⟨a, b, ha, by rw [o.objs s (List.getElem?_eq_some_iff.1 hb).1 (d1 s (List.mem_of_getElem? hr))]; exact hb, hab⟩
  · obtain ⟨a, ha, hb⟩ := h.ios r s hr
    exact ⟨a, ha, by rw [o.ios s (List.getElem?_eq_some_iff.1 hb).1 (d2 s (List.mem_of_getElem? hr))]; exact hb⟩

/-- Threads and the memory that they share. -/
structure World (ι : Type) (α : Type) where
  threads : ι → R α
  memory : State

variable {ι : Type} [DecidableEq ι]

/-- The thread `i` takes a step. -/
def World.step (w : World ι α) (i : ι) : World ι α :=
  ⟨fun j => if j = i then ((w.threads i).step w.memory).1 else w.threads j, ((w.threads i).step w.memory).2⟩

/-- The threads take steps in the given order. -/
def World.run (w : World ι α) (turns : List ι) : World ι α := turns.foldl World.step w

/-- The thread alone, so many steps. -/
def R.steps : Nat → R α × State → R α × State
  | 0, x => x
  | n + 1, x => R.steps n (x.1.step x.2)

theorem step_run (p : R α) (σ : State) : (p.step σ).1.run (p.step σ).2 = p.run σ := by
  cases p with
  | done a => rfl
  | raise e => rfl
  | fetch r k => rw [R.step, R.run]; cases (Py.fetch r).run σ <;> rfl
  | store r x v k => rw [R.step, R.run]; cases (Py.store r x v).run σ <;> rfl
  | alloc c k => rw [R.step, R.run]; cases (Py.alloc c).run σ <;> rfl
  | stream b k => rw [R.step, R.run]; cases (Py.open_ b).run σ <;> rfl
  | io n m a k => rw [R.step, R.run]; cases (ioMethod n m (a.map .pv)).run σ <;> rfl
  | size n k => rw [R.step, R.run]; cases (lengthOf n).run σ <;> rfl

theorem steps_run : ∀ (n : Nat) (x : R α × State), (R.steps n x).1.run (R.steps n x).2 = x.1.run x.2
  | 0, _ => rfl
  | n + 1, x => by rw [R.steps, steps_run n, step_run]

theorem steps_step : ∀ (n : Nat) (x : R α × State), R.steps (n + 1) x = (R.steps n x).1.step (R.steps n x).2
  | 0, _ => rfl
  | n + 1, x => by rw [R.steps, steps_step n, R.steps]

/-- Where each thread is: as many steps on its own way as it had turns, in a part of the memory of its own. -/
structure Apart (old : State) (start : ι → R Val) (turns : List ι) (w : World ι Val) (ρ : ι → Ren) : Prop where
  sim : ∀ i, Sim Corr (ρ i) (R.steps (turns.count i) (start i, ⟨[], []⟩)).1 (w.threads i)
  mem : ∀ i, Mem (ρ i) (R.steps (turns.count i) (start i, ⟨[], []⟩)).2 w.memory
  obj : ∀ i j, i ≠ j → ∀ s ∈ (ρ i).obj, s ∉ (ρ j).obj
  io : ∀ i j, i ≠ j → ∀ s ∈ (ρ i).io, s ∉ (ρ j).io
  newObj : ∀ i, ∀ s ∈ (ρ i).obj, old.heap.length ≤ s
  newIo : ∀ i, ∀ s ∈ (ρ i).io, old.streams.length ≤ s
  kept : Only ⟨[], []⟩ old w.memory

theorem Mem.bound {ρ : Ren} {σ τ : State} (h : Mem ρ σ τ) : (∀ s ∈ ρ.obj, s < τ.heap.length) ∧ ∀ s ∈ ρ.io, s < τ.streams.length := by
  refine ⟨fun s hs => ?_, fun s hs => ?_⟩
  · obtain ⟨i, hi⟩ := List.getElem?_of_mem hs
    obtain ⟨_, _, _, hp, _⟩ := h.objs _ _ hi
    exact (List.getElem?_eq_some_iff.1 hp).1
  · obtain ⟨i, hi⟩ := List.getElem?_of_mem hs
    obtain ⟨_, _, hp⟩ := h.ios _ _ hi
    exact (List.getElem?_eq_some_iff.1 hp).1

theorem Apart.step {old : State} {start : ι → R Val} {turns : List ι} {w : World ι Val} {ρ : ι → Ren} (h : Apart old start turns w ρ) (i : ι) :
    ∃ ρ', Apart old start (turns ++ [i]) (w.step i) ρ' := by
  obtain ⟨ρ', _, hs, hm, ho, hf⟩ := step_sim (h.sim i) (h.mem i)
  have cnt : ∀ j, (turns ++ [i]).count j = if j = i then turns.count i + 1 else turns.count j := by
    intro j
    rw [List.count_append]
    by_cases e : j = i
    · subst e; simp
    · rw [if_neg e, List.count_singleton]
      have : (i == j) = false := by simpa using fun k => e k.symm
      simp [this]
  refine ⟨fun j => if j = i then ρ' else ρ j, ⟨fun j => ?_, fun j => ?_, fun j k hjk s hs' => ?_, fun j k hjk s hs' => ?_, fun j s hs' => ?_, fun j s hs' => ?_, ?_⟩⟩
  · rw [cnt j]
    dsimp only [World.step]
    by_cases e : j = i
    · subst e
      rw [if_pos rfl, if_pos rfl, if_pos rfl, steps_step]
      exact hs
    · rw [if_neg e, if_neg e, if_neg e]
      exact h.sim j
  · rw [cnt j]
    dsimp only [World.step]
    by_cases e : j = i
    · subst e
      rw [if_pos rfl, if_pos rfl, steps_step]
      exact hm
    · rw [if_neg e, if_neg e]
      exact (h.mem j).keep ho (h.obj j i e) (h.io j i e)
  · show s ∉ (if k = i then ρ' else ρ k).obj
    change s ∈ (if j = i then ρ' else ρ j).obj at hs'
    by_cases ej : j = i
    · subst ej
      rw [if_pos rfl] at hs'
      rw [if_neg (fun e => hjk e.symm)]
      rcases hf.obj s hs' with h' | h'
      · exact h.obj j k hjk s h'
      · intro hk
        have := (h.mem k).bound.1 s hk
        omega
    · rw [if_neg ej] at hs'
      by_cases ek : k = i
      · subst ek
        rw [if_pos rfl]
        intro hk
        rcases hf.obj s hk with h' | h'
        · exact h.obj j k hjk s hs' h'
        · have := (h.mem j).bound.1 s hs'
          omega
      · rw [if_neg ek]
        exact h.obj j k hjk s hs'
  · show s ∉ (if k = i then ρ' else ρ k).io
    change s ∈ (if j = i then ρ' else ρ j).io at hs'
    by_cases ej : j = i
    · subst ej
      rw [if_pos rfl] at hs'
      rw [if_neg (fun e => hjk e.symm)]
      rcases hf.io s hs' with h' | h'
      · exact h.io j k hjk s h'
      · intro hk
        have := (h.mem k).bound.2 s hk
        omega
    · rw [if_neg ej] at hs'
      by_cases ek : k = i
      · subst ek
        rw [if_pos rfl]
        intro hk
        rcases hf.io s hk with h' | h'
        · exact h.io j k hjk s hs' h'
        · have := (h.mem j).bound.2 s hs'
          omega
      · rw [if_neg ek]
        exact h.io j k hjk s hs'
  · change s ∈ (if j = i then ρ' else ρ j).obj at hs'
    split at hs'
    · rcases hf.obj s hs' with h' | h'
      · exact h.newObj i s h'
      · exact Nat.le_trans h.kept.heap h'
    · exact h.newObj j s hs'
  · change s ∈ (if j = i then ρ' else ρ j).io at hs'
    split at hs'
    · rcases hf.io s hs' with h' | h'
      · exact h.newIo i s h'
      · exact Nat.le_trans h.kept.streams h'
    · exact h.newIo j s hs'
  · refine ⟨Nat.le_trans h.kept.heap ho.heap, fun s hs' _ => ?_, Nat.le_trans h.kept.streams ho.streams, fun s hs' _ => ?_⟩
    · refine (ho.objs s (Nat.lt_of_lt_of_le hs' h.kept.heap) fun hm => ?_).trans (h.kept.objs s hs' (by simp))
      have := h.newObj i s hm
      omega
    · refine (ho.ios s (Nat.lt_of_lt_of_le hs' h.kept.streams) fun hm => ?_).trans (h.kept.ios s hs' (by simp))
      have := h.newIo i s hm
      omega

theorem Apart.run {old : State} {start : ι → R Val} (more : List ι) : ∀ {turns : List ι} {w : World ι Val} {ρ : ι → Ren}, Apart old start turns w ρ →
    ∃ ρ', Apart old start (turns ++ more) (w.run more) ρ' := by
  induction more with
  | nil => intro turns w ρ h; exact ⟨ρ, by rw [List.append_nil]; exact h⟩
  | cons i more ih =>
    intro turns w ρ h
    obtain ⟨ρ', h'⟩ := h.step i
    obtain ⟨ρ'', h''⟩ := ih h'
    exact ⟨ρ'', by rw [List.append_cons]; exact h''⟩

/-- Threads that know nothing of the memory when they start are apart. -/
theorem apart {start : ι → R Val} (h : ∀ i, Sim Corr ⟨[], []⟩ (start i) (start i)) (τ : State) (turns : List ι) :
    ∃ ρ, Apart τ start turns (World.run ⟨start, τ⟩ turns) ρ := by
  have := Apart.run (old := τ) (start := start) turns (turns := []) (w := ⟨start, τ⟩) (ρ := fun _ => ⟨[], []⟩) ⟨fun i => h i,
    fun i => ⟨rfl, fun r s hr => by simp at hr, rfl, fun r s hr => by simp at hr, List.nodup_nil, List.nodup_nil⟩, fun _ _ _ s hs => by simp at hs,
    fun _ _ _ s hs => by simp at hs, fun _ s hs => by simp at hs, fun _ s hs => by simp at hs, Only.refl _ _⟩
  simpa using this

end Dmr.Py.Threads
