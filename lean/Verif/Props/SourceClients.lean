import Verif.Py.ClientProofs
/-
C71: programs that use the library at the same time (Verif/Py/Client) do not disturb each other, unless they have handed over something.
-/

set_option autoImplicit false
set_option linter.unusedSectionVars false

namespace Dmr.Py

open Threads (R)

variable {ι : Type} [DecidableEq ι]

/-- **C71.** Clients are in teams, and take over answers only from clients of the same team. Then each client sees what it would see if its team were
alone: the other teams may be anything and do anything, in whatever order all of them take their steps. And it is busy or not just as it would be. -/
theorem C71_teams {γ : Type} [DecidableEq γ] (n : Nat) (programs : ι → Program' ι) (team : ι → γ)
    (borrows : ∀ i s j k, programs i s = some (.borrow j k) → team j = team i) (old : State) (turns : List ι) (i : ι) :
    (((Clients.fresh old).run n programs turns).clients i).seen =
        (((Clients.fresh ⟨[], []⟩).run n programs (turns.filter fun j => team j = team i)).clients i).seen ∧
      ((((Clients.fresh old).run n programs turns).clients i).now.isSome =
        (((Clients.fresh ⟨[], []⟩).run n programs (turns.filter fun j => team j = team i)).clients i).now.isSome) := by
  obtain ⟨ρ, h⟩ := Threads.teams n programs team borrows old turns
  obtain ⟨h1, h2⟩ := h.sim (team i) i rfl
  refine ⟨h1.seen.symm, ?_⟩
  unfold Threads.teamAlone at h2
  revert h2
  cases (((Clients.fresh old).run n programs turns).clients i).now <;>
    cases (((Clients.fresh ⟨[], []⟩).run n programs (turns.filter fun j => team j = team i)).clients i).now <;> intro h2
  · rfl
  · cases h2
  · cases h2
  · rfl

/-- **C71.** What was in the memory before is not touched. -/
theorem C71_old (n : Nat) (programs : ι → Program' ι) (old : State) (turns : List ι) :
    (∀ (r : Nat) o, old.heap[r]? = some o → ((Clients.fresh old).run n programs turns).memory.heap[r]? = some o) ∧
    (∀ (k : Nat) s, old.streams[k]? = some s → ((Clients.fresh old).run n programs turns).memory.streams[k]? = some s) := by
  obtain ⟨ρ, h⟩ := Threads.teams n programs (fun _ => ()) (fun _ _ _ _ _ => rfl) old turns
  refine ⟨fun r o hr => ?_, fun k s hk => ?_⟩
  · rw [← hr]
    exact h.kept.objs r (List.getElem?_eq_some_iff.1 hr).1 (by simp)
  · rw [← hk]
    exact h.kept.ios k (List.getElem?_eq_some_iff.1 hk).1 (by simp)

/-! ### One client -/

/-- The first `k` requests of the program, one after the other, each to its end, and nobody else is there: the answers, and the memory. -/
def talk (n : Nat) (p : Program' ι) (i : ι) : Nat → List Answer × State
  | 0 => ([], ⟨[], []⟩)
  | k + 1 =>
    match p ((talk n p i k).1.map Answer.seen) with
    | none => talk n p i k
    | some r =>
      let o := (r.begin n (fun _ => (talk n p i k).1) i).run (talk n p i k).2
      ((talk n p i k).1 ++ [o.result], o.memory)

/-- The client `i` takes over nothing from the others, and they take over nothing from it. -/
def Separate (programs : ι → Program' ι) (i : ι) : Prop :=
  (∀ s j k, programs i s ≠ some (.borrow j k)) ∧ ∀ j s k, programs j s ≠ some (.borrow i k)

namespace Threads

/-- The steps that the first `k` requests take. -/
def needs (n : Nat) (p : Program' ι) (i : ι) : Nat → Nat
  | 0 => 0
  | k + 1 =>
    match p ((talk n p i k).1.map Answer.seen) with
    | none => needs n p i k
    | some r => needs n p i k + (r.begin n (fun _ => (talk n p i k).1) i).ops (talk n p i k).2 + 2

theorem needs_le (n : Nat) (p : Program' ι) (i : ι) (k : Nat) : needs n p i k ≤ needs n p i (k + 1) := by
  rw [needs]
  split <;> omega

theorem needs_mono (n : Nat) (p : Program' ι) (i : ι) {k m : Nat} (h : k ≤ m) : needs n p i k ≤ needs n p i m := by
  induction h with
  | refl => exact Nat.le_refl _
  | step _ ih => exact Nat.le_trans ih (needs_le n p i _)

theorem talk_prefix (n : Nat) (p : Program' ι) (i : ι) {k m : Nat} (h : k ≤ m) : (talk n p i k).1 <+: (talk n p i m).1 := by
  induction h with
  | refl => exact List.prefix_refl _
  | @step m _ ih =>
    refine ih.trans ?_
    rw [talk]
    split
    · exact List.prefix_refl _
    · exact List.prefix_append _ _

/-- It has nothing more to say. -/
theorem talk_over (n : Nat) (p : Program' ι) (i : ι) {k m : Nat} (h : k ≤ m) (e : p ((talk n p i k).1.map Answer.seen) = none) :
    talk n p i m = talk n p i k := by
  induction h with
  | refl => rfl
  | @step m _ ih =>
    rw [talk, ih, e]

theorem begin_own (n : Nat) (all all' : ι → List Answer) (i : ι) (r : Request ι) (own : all i = all' i) (h : ∀ j k, r ≠ .borrow j k) :
    r.begin n all i = r.begin n all' i := by
  cases r with
  | borrow j k => exact absurd rfl (h j k)
  | _ => unfold Request.begin; rw [own]

/-- How far it has come after `c` steps. -/
inductive Talking (n : Nat) (p : Program' ι) (i : ι) (c : Nat) : Client → State → Prop
  | idle (k : Nat) (h : c ≤ needs n p i k ∨ p ((talk n p i k).1.map Answer.seen) = none) : Talking n p i c ⟨(talk n p i k).1, none⟩ (talk n p i k).2
  | busy (k : Nat) (r : Request ι) (hr : p ((talk n p i k).1.map Answer.seen) = some r) (q : R Val) (σ : State)
      (run : q.run σ = (r.begin n (fun _ => (talk n p i k).1) i).run (talk n p i k).2) (h : c + q.ops σ + 1 ≤ needs n p i (k + 1)) :
      Talking n p i c ⟨(talk n p i k).1, some q⟩ σ

theorem ended_result {q : R Val} (h : q.ended = true) : ∃ a, q.result = some a := by
  cases q <;> first | exact ⟨_, rfl⟩ | cases h

theorem run_memory {q : R Val} {a : Answer} (h : q.result = some a) (σ : State) : (q.run σ).result = a ∧ (q.run σ).memory = σ := by
  cases q <;> cases h <;> exact ⟨rfl, rfl⟩

theorem ops_pos {q : R Val} (h : q.result = none) (σ : State) : 0 < q.ops σ := by
  by_contra h'
  obtain ⟨a, ha⟩ := ended_result (ops_zero q σ (by omega))
  rw [h] at ha
  cases ha

theorem talking_step {n : Nat} {programs : ι → Program' ι} {i : ι} (apart : ∀ s j k, programs i s ≠ some (.borrow j k)) {c : Nat} {w : Clients ι}
    (h : Talking n (programs i) i c (w.clients i) w.memory) : Talking n (programs i) i (c + 1) ((w.step n programs i).clients i) (w.step n programs i).memory := by
  have here : ∀ (d : Client) (σ : State), (w.set i d σ).clients i = d := fun d σ => by unfold Clients.set; dsimp only; rw [if_pos rfl]
  obtain ⟨clients, memory⟩ := w
  dsimp only at h here
  unfold Clients.step
  dsimp only
  revert h
  generalize hc : clients i = d
  intro h
  cases h with
  | idle k h =>
    dsimp only [Client.seen]
    cases hp : programs i ((talk n (programs i) i k).1.map Answer.seen) with
    | none =>
      dsimp only
      rw [hc]
      exact .idle k (.inr hp)
    | some r =>
      dsimp only
      rw [here]
      refine .busy k r hp _ _ ?_ ?_
      · rw [begin_own n _ (fun _ => (talk n (programs i) i k).1) i r (by rw [hc]) (fun j l e => apart _ j l (by rw [hp, e]))]
        rfl
      · rw [begin_own n _ (fun _ => (talk n (programs i) i k).1) i r (by rw [hc]) (fun j l e => apart _ j l (by rw [hp, e])), needs, hp]
        dsimp only [Clients.set]
        rcases h with h | h
        · omega
        · rw [hp] at h; cases h
  | busy k r hr q σ run h =>
    dsimp only
    cases hq : q.result with
    | some a =>
      dsimp only
      rw [here]
      obtain ⟨h1, h2⟩ := run_memory hq memory
      have e : talk n (programs i) i (k + 1) = ((talk n (programs i) i k).1 ++ [a], memory) := by
        rw [talk, hr]
        dsimp only
        rw [← run, h1, h2]
      have := Talking.idle (n := n) (p := programs i) (i := i) (c := c + 1) (k + 1) (.inl (by omega))
      rw [e] at this
      exact this
    | none =>
      dsimp only
      rw [here]
      refine .busy k r hr _ _ ?_ ?_
      · rw [← run]
        exact step_run q memory
      · have h1 := ops_step q memory
        have h2 := ops_pos hq memory
        dsimp only [Clients.set]
        omega

theorem talking (n : Nat) {programs : ι → Program' ι} {i : ι} (apart : ∀ s j k, programs i s ≠ some (.borrow j k)) : ∀ (m c : Nat) (w : Clients ι),
    Talking n (programs i) i c (w.clients i) w.memory →
      Talking n (programs i) i (c + m) ((w.run n programs (List.replicate m i)).clients i) (w.run n programs (List.replicate m i)).memory
  | 0, _, _, h => h
  | m + 1, c, w, h => by
    rw [List.replicate_succ, Clients.run, List.foldl_cons, show c + (m + 1) = c + 1 + m by omega]
    exact talking n apart m (c + 1) _ (talking_step apart h)

theorem filter_replicate (i : ι) : ∀ turns : List ι, (turns.filter fun j => decide (j = i) = decide (i = i)) = List.replicate (turns.count i) i
  | [] => rfl
  | j :: turns => by
    rw [List.filter_cons, List.count_cons]
    by_cases h : j = i
    · subst h
      simp only [decide_true, if_true, beq_self_eq_true, List.replicate_succ]
      rw [show (turns.filter fun l => decide (decide (l = j) = true)) = _ from by simpa using filter_replicate j turns]
    · have : (j == i) = false := by simpa using h
      rw [if_neg (by simpa using h), this]
      simpa using filter_replicate i turns

/-- Where it is in a world with others. -/
theorem talks (n : Nat) (programs : ι → Program' ι) (i : ι) (apart : Separate programs i) (old : State) (turns : List ι) :
    ∃ c σ, c.seen = (((Clients.fresh old).run n programs turns).clients i).seen ∧ Talking n (programs i) i (turns.count i) c σ := by
  have h := C71_teams n programs (fun j => decide (j = i)) (fun j s l k hb => by
    by_cases hj : j = i
    · subst hj; exact absurd hb (apart.1 s l k)
    · by_cases hl : l = i
      · subst hl; exact absurd hb (apart.2 j s k)
      · simp [hj, hl]) old turns i
  rw [filter_replicate] at h
  have := talking n apart.1 (turns.count i) 0 (Clients.fresh ⟨[], []⟩) (.idle 0 (.inl (Nat.zero_le _)))
  rw [Nat.zero_add] at this
  exact ⟨_, _, h.1.symm, this⟩

end Threads

/-- **C71.** A client that shares nothing with the others sees, at any time, the answers to its first requests as if it were the only one, and made one
request after the other. -/
theorem C71_alone (n : Nat) (programs : ι → Program' ι) (i : ι) (apart : Separate programs i) (old : State) (turns : List ι) :
    ∃ k, (((Clients.fresh old).run n programs turns).clients i).seen = (talk n (programs i) i k).1.map Answer.seen := by
  obtain ⟨c, σ, h1, h2⟩ := Threads.talks n programs i apart old turns
  rw [← h1]
  cases h2 with
  | idle k => exact ⟨k, rfl⟩
  | busy k => exact ⟨k, rfl⟩

/-- **C71.** And nobody can stop it: for any number of requests there is a number of steps after which they have been answered, whatever the others are
and do. -/
theorem C71_answers (n : Nat) (p : Program' ι) (i : ι) (k : Nat) :
    ∃ N, ∀ programs : ι → Program' ι, programs i = p → Separate programs i → ∀ (old : State) (turns : List ι), N ≤ turns.count i →
      (talk n p i k).1.map Answer.seen <+: (((Clients.fresh old).run n programs turns).clients i).seen := by
  refine ⟨Threads.needs n p i k + 1, fun programs hp apart old turns enough => ?_⟩
  obtain ⟨c, σ, h1, h2⟩ := Threads.talks n programs i apart old turns
  rw [← h1]
  rw [hp] at h2
  have later : ∀ m, k ≤ m → (talk n p i k).1.map Answer.seen <+: (talk n p i m).1.map Answer.seen := fun m h => (Threads.talk_prefix n p i h).map _
  cases h2 with
  | idle m h =>
    show _ <+: (talk n p i m).1.map Answer.seen
    by_cases hk : k ≤ m
    · exact later m hk
    · rcases h with h | h
      · have := Threads.needs_mono n p i (show m ≤ k by omega)
        omega
      · rw [Threads.talk_over n p i (show m ≤ k by omega) h]
        exact List.prefix_refl _
  | busy m r hr q _ run h =>
    show _ <+: (talk n p i m).1.map Answer.seen
    by_cases hk : k ≤ m
    · exact later m hk
    · have := Threads.needs_mono n p i (show m + 1 ≤ k by omega)
      omega

/-- **C71.** What the requests mean: `from_bytes` and `getattr` give what Verif/Py/Semantics says, in the memory as it is when they are begun. -/
theorem C71_meaning (n : Nat) (all : ι → List Answer) (i : ι) (σ : State) :
    (∀ cls b, (((Request.decode cls b : Request ι).begin n all i).run σ).result = (((decoding cls b).fn.call library (calls library n) [.pv (.bytes b)]).run σ).result) ∧
    ∀ k p v, (all i)[k]? = some (.ok v) → (((Request.get k p : Request ι).begin n all i).run σ).result = ((getattr (calls library n) v p).run σ).result := by
  have key : ∀ {q : R Val} {m : M Val}, Threads.Does q m → (q.run σ).result = (m.run σ).result := by
    intro q m h
    have h := h σ
    revert h
    cases q.run σ <;> cases m.run σ <;> intro h
    · obtain ⟨rfl, -⟩ := h; rfl
    · exact h.elim
    · exact h.elim
    · obtain ⟨rfl, -⟩ := h; rfl
  refine ⟨fun cls b => key (Threads.call_same library (Threads.calls_same library n) _ _), fun k p v hv => ?_⟩
  unfold Request.begin
  dsimp only
  rw [hv]
  exact key (Threads.getattr_same (Threads.calls_same library n) v p)

/-! ### A packet -/

/-- It decodes the bytes, and then uses the properties, one after the other. -/
def visit (name : String) (b : Bytes) (ps : List String) : Program' ι := fun seen =>
  match seen.length with
  | 0 => some (.decode name b)
  | m + 1 => (ps[m]?).map (.get 0 ·)

mutual
/-- A value as it is seen. -/
def look : PyVal → Seen
  | .struct _ _ => .object
  | .list l => .list (lookAll l)
  | v => .plain v
/-- Item by item. -/
def lookAll : List PyVal → List Seen
  | [] => []
  | v :: l => look v :: lookAll l
end

namespace Threads

mutual
theorem Reads.seen {h : List Obj} {w : Val} {v : PyVal} : Reads h w v → w.seen = look v
  | .plain v h1 h2 => by
    cases v with
    | struct c vs => exact absurd rfl (h1 c vs)
    | list l => exact absurd rfl (h2 l)
    | _ => rfl
  | .list e => by rw [Val.seen, look, ReadsItems.seen e]
  | .object _ _ _ _ => by rw [Val.seen, look]
theorem ReadsItems.seen {h : List Obj} {w : List Val} {v : List PyVal} : ReadsItems h w v → seenAll w = lookAll v
  | .nil => rfl
  | .cons e es => by rw [seenAll, lookAll, Reads.seen e, ReadsItems.seen es]
end

theorem Outcome.seen {h : List Obj} {a : Answer} {v : Except PyErr PyVal} (e : Outcome h a v) : a.seen = v.map look := by
  cases a <;> cases v <;> first | exact e.elim | skip
  · cases e; rfl
  · show Except.ok _ = Except.ok _
    rw [Reads.seen e]

theorem stays_prefix {h h' : List Obj} (p : h <+: h') : Stays h h' := by
  intro r o hr
  obtain ⟨t, rfl⟩ := p
  exact ⟨o, by rw [List.getElem?_append_left (List.getElem?_eq_some_iff.1 hr).1]; exact hr, rfl, fun _ _ => rfl⟩

/-- There may be more objects. -/
theorem kept_prefix {subs : List (Nat × Subject)} {k : Nat} {σ τ : State} {io : Stream} (h : Kept' subs k σ io) (p : σ.heap <+: τ.heap)
    (e : σ.streams = τ.streams) : Kept' subs k τ io := by
  intro x hx
  obtain ⟨y, h1, h2, h3⟩ := h x hx
  refine ⟨y, h1, h2, by rw [← e]; exact h3.stream, ?_⟩
  obtain ⟨cls, vs, attrs, a1, a2, a3, a4, a5⟩ := h3.object
  refine ⟨cls, vs, attrs, a1, ?_, a3, a4, fun z hz => (a5 z hz).stays (stays_prefix p)⟩
  obtain ⟨t, ht⟩ := p
  rw [← ht, List.getElem?_append_left (List.getElem?_eq_some_iff.1 a2).1]
  exact a2

theorem decoded_kept {name : String} {s : LazySpec} (known : (name, s) ∈ propertyClasses) {n : Nat} (hn : 13 ≤ n) {b : Bytes} {x : s.cls.Attrs}
    (h : Dmr.fromBytes s.cls.read b = .ok x) :
    ∃ σ io, Py.fromBytes library n name b = .ok (.obj 0) σ ∧ io.buf = b ∧ Kept' [(0, ⟨s, s.cls.fresh x⟩)] 0 σ io := by
  obtain ⟨hs, hname⟩ := propertyClasses_known _ known
  obtain ⟨make, ht⟩ := Constructs.agrees (table_claims _ (objectDecoders_in_table _ hname))
  have ht := ht b
  dsimp only at ht
  rcases hx : s.cls.read (Stream.new b) with ⟨e | y, t⟩
  · unfold Dmr.fromBytes at h; rw [hx] at h; cases h
  have : y = x := by unfold Dmr.fromBytes at h; rw [hx] at h; cases h; rfl
  subst this
  rw [hx] at ht
  obtain ⟨h1, h2, nav, -⟩ := ht
  have hb := read_keeps _ hname hx
  generalize make y = heap at h1 h2 nav
  refine ⟨_, t, h1 n hn, hb, fun z hz => ?_⟩
  rw [List.mem_singleton] at hz
  subst hz
  refine ⟨_, rfl, ?_, decoded_holds (lazySpecs_noRaw _ hs) nav h2⟩
  have := Properties.lazySpecs_fresh s hs (Stream.new b) y t hx (fun _ => rfl)
  rw [hb]
  exact this

/-- After the packet has been decoded and `k` properties have been used. -/
theorem visit_talk {name : String} {s : LazySpec} (known : (name, s) ∈ propertyClasses) {n : Nat} (hn : 13 ≤ n) {b : Bytes} {x : s.cls.Attrs}
    (h : Dmr.fromBytes s.cls.read b = .ok x) {ps : List String} (valid : ∀ p ∈ ps, p ∈ s.cls.getters.map Prod.fst) (i : ι) : ∀ k ≤ ps.length,
    ∃ outs io, (talk n (visit name b ps) i (k + 1)).1 = .ok (.obj 0) :: outs ∧ outs.map Answer.seen = (ps.take k).map (fun p => (s.value x b p).map look) ∧
      io.buf = b ∧ Kept' [(0, ⟨s, s.cls.fresh x⟩)] 0 (talk n (visit name b ps) i (k + 1)).2 io := by
  intro k
  induction k with
  | zero =>
    intro _
    obtain ⟨σ, io, h1, h2, h3⟩ := decoded_kept known hn h
    have hd : ((decoding name b).thread n).run ⟨[], []⟩ = .ok (.obj 0) σ := by
      have := task_does (decoding name b) n
      rw [decoding_alone, h1] at this
      revert this
      cases ((decoding name b).thread n).run ⟨[], []⟩ with
      | ok v τ => rintro ⟨rfl, rfl⟩; rfl
      | raise e τ => exact False.elim
    have e : talk n (visit (ι := ι) name b ps) i 1 = ([.ok (.obj 0)], σ) := by
      show ([] ++ [(((decoding name b).thread n).run ⟨[], []⟩).result], (((decoding name b).thread n).run ⟨[], []⟩).memory) = _
      rw [hd]
      rfl
    rw [e]
    exact ⟨[], io, rfl, rfl, h2, h3⟩
  | succ k ih =>
    intro hk
    obtain ⟨outs, io, h1, h2, h3, h4⟩ := ih (by omega)
    have hlt : k < ps.length := hk
    have hlen : outs.length = k := by
      have := congrArg List.length h2
      simpa [Nat.min_eq_left (Nat.le_of_lt hlt)] using this
    have hp : visit (ι := ι) name b ps ((talk n (visit name b ps) i (k + 1)).1.map Answer.seen) = some (.get 0 ps[k]) := by
      unfold visit
      rw [List.length_map]
      have : (talk n (visit (ι := ι) name b ps) i (k + 1)).1.length = k + 1 := by rw [h1, List.length_cons, hlen]
      unfold visit at this
      rw [this]
      dsimp only
      rw [List.getElem?_eq_getElem hlt]
      rfl
    obtain ⟨out, τ, io', a1, a2, a3, a4, -, -⟩ := one_access hn (by simp) (List.forall_mem_cons.2 ⟨(propertyClasses_known _ known).1, by simp⟩) h4 (List.mem_singleton.2 rfl)
      (p := ps[k]) (lookup_isSome_of_mem (valid _ (List.getElem_mem hlt)))
    have hb : (Request.get (ι := ι) 0 ps[k]).begin n (fun _ => (talk n (visit name b ps) i (k + 1)).1) i = getattr (calls library n) (.obj 0) ps[k] := by
      unfold Request.begin
      dsimp only
      rw [h1]
      rfl
    have hd := getattr_same (calls_same library n) (.obj 0) ps[k] (talk n (visit (ι := ι) name b ps) i (k + 1)).2
    rw [show (Py.getattr (Py.calls library n) (.obj 0) ps[k]).run _ = _ from a1] at hd
    have key : ((getattr (calls library n) (.obj 0) ps[k]).run (talk n (visit (ι := ι) name b ps) i (k + 1)).2).result = out ∧
        Kept' [(0, ⟨s, s.cls.fresh x⟩)] 0 ((getattr (calls library n) (.obj 0) ps[k]).run (talk n (visit (ι := ι) name b ps) i (k + 1)).2).memory io' := by
      revert hd
      cases (getattr (calls library n) (.obj 0) ps[k]).run (talk n (visit (ι := ι) name b ps) i (k + 1)).2 <;> cases out <;> intro hd
      · exact hd.elim
      · obtain ⟨rfl, rfl⟩ := hd; exact ⟨rfl, a3⟩
      · obtain ⟨rfl, hd1, hd2⟩ := hd; exact ⟨rfl, kept_prefix a3 hd1 hd2⟩
      · exact hd.elim
    have e : talk n (visit (ι := ι) name b ps) i (k + 1 + 1) = ((talk n (visit (ι := ι) name b ps) i (k + 1)).1 ++
        [((getattr (calls library n) (.obj 0) ps[k]).run (talk n (visit (ι := ι) name b ps) i (k + 1)).2).result],
        ((getattr (calls library n) (.obj 0) ps[k]).run (talk n (visit (ι := ι) name b ps) i (k + 1)).2).memory) := by
      rw [talk, hp]
      dsimp only
      rw [hb]
    rw [e]
    dsimp only
    refine ⟨outs ++ [out], io', by rw [h1, key.1]; rfl, ?_, a4.trans h3, key.2⟩
    rw [List.map_append, h2, List.take_add_one, List.getElem?_eq_getElem hlt, List.map_append]
    congr 1
    rw [h3] at a2
    show [Answer.seen out] = [_]
    rw [Outcome.seen a2]
    rfl

end Threads

/-- **C71.** From the bytes to the values: a client decodes a packet, and uses its properties, also those that use the stream. Whatever the others are
and do, it sees an object, and then what the properties are specified to be; and if it has had enough steps, it has seen all of it. -/
theorem C71_packet (name : String) (s : LazySpec) (known : (name, s) ∈ propertyClasses) (n : Nat) (hn : 13 ≤ n) (b : Bytes) (x : s.cls.Attrs)
    (h : Dmr.fromBytes s.cls.read b = .ok x) (ps : List String) (valid : ∀ p ∈ ps, p ∈ s.cls.getters.map Prod.fst) (i : ι) :
    ∃ N, ∀ programs : ι → Program' ι, programs i = visit name b ps → Separate programs i → ∀ (old : State) (turns : List ι),
      (((Clients.fresh old).run n programs turns).clients i).seen <+: .ok .object :: ps.map (fun p => (s.value x b p).map look) ∧
      (N ≤ turns.count i → (((Clients.fresh old).run n programs turns).clients i).seen = .ok .object :: ps.map (fun p => (s.value x b p).map look)) := by
  obtain ⟨outs, io, h1, h2, -, -⟩ := Threads.visit_talk known hn h valid i ps.length (Nat.le_refl _)
  rw [List.take_length] at h2
  have hall : (talk n (visit name b ps) i (ps.length + 1)).1.map Answer.seen = .ok .object :: ps.map (fun p => (s.value x b p).map look) := by
    rw [h1, List.map_cons, h2]
    rfl
  have over : visit (ι := ι) name b ps ((talk n (visit name b ps) i (ps.length + 1)).1.map Answer.seen) = none := by
    rw [hall]
    unfold visit
    simp
  obtain ⟨N, hN⟩ := C71_answers n (visit name b ps) i (ps.length + 1)
  refine ⟨N, fun programs hp apart old turns => ?_⟩
  have low : (((Clients.fresh old).run n programs turns).clients i).seen <+: .ok .object :: ps.map (fun p => (s.value x b p).map look) := by
    obtain ⟨k, hk⟩ := C71_alone n programs i apart old turns
    rw [hk, hp, ← hall]
    refine List.IsPrefix.map _ ?_
    by_cases hle : k ≤ ps.length + 1
    · exact Threads.talk_prefix n _ i hle
    · rw [Threads.talk_over n _ i (show ps.length + 1 ≤ k by omega) over]
      exact List.prefix_refl _
  refine ⟨low, fun enough => ?_⟩
  have high := hN programs hp apart old turns enough
  rw [hall] at high
  exact List.IsPrefix.eq_of_length_le low high.length_le

/-! ### A packet that is shared -/

/-- It takes over the first answer of the client `j`, and then uses the properties, one after the other. -/
def borrower (j : ι) (ps : List String) : Program' ι := fun seen =>
  match seen.length with
  | 0 => some (.borrow j 0)
  | m + 1 => (ps[m]?).map (.get 0 ·)

namespace Threads

theorem decoding_ops (cls : String) (b : Bytes) (n : Nat) : ((decoding cls b).thread n).ops ⟨[], []⟩ ≤ 1986 + 1392 * b.length := by
  have := (call_pays library (calls_pay library n) (decoding cls b).fn ((decoding cls b).args.map .pv) ⟨[], []⟩).2
  have hs := decoding_steps cls b n
  unfold Task.thread
  omega

/-- A borrower, and the thread of Verif/Props/SourceShared that does the same; so many steps are not the business of the thread. -/
inductive Worker (ps : List String) : Nat → Client → User → Prop
  | first : Worker ps 2 .fresh (.start (ps.map fun p => (0, p)))
  | second : Worker ps 1 ⟨[], some (.done (.obj 0))⟩ (.start (ps.map fun p => (0, p)))
  | idle (got : List Answer) : Worker ps 0 ⟨.ok (.obj 0) :: got, none⟩ ⟨got, none, (ps.drop got.length).map fun p => (0, p)⟩
  | busy (got : List Answer) (q : R Val) : Worker ps 0 ⟨.ok (.obj 0) :: got, some q⟩ ⟨got, some q, (ps.drop (got.length + 1)).map fun p => (0, p)⟩

/-- The team after the leader has decoded the packet. -/
structure Working (leader : ι) (worker : ι → Option (List String)) (pending : ι → Nat) (w : Clients ι) (u : Users ι) : Prop where
  leader : w.clients leader = ⟨[.ok (.obj 0)], none⟩
  memory : w.memory = u.memory
  workers : ∀ j ps, worker j = some ps → Worker ps (pending j) (w.clients j) (u.users j)

theorem set_here (w : Clients ι) (i : ι) (c : Client) (σ : State) : (w.set i c σ).clients i = c := by unfold Clients.set; dsimp only; rw [if_pos rfl]
theorem set_there (w : Clients ι) {i j : ι} (c : Client) (σ : State) (h : j ≠ i) : (w.set i c σ).clients j = w.clients j := by
  unfold Clients.set; dsimp only; rw [if_neg h]

theorem Working.update {leader : ι} {worker : ι → Option (List String)} {pending : ι → Nat} {w : Clients ι} {u : Users ι} (h : Working leader worker pending w u)
    (hl : worker leader = none) {i : ι} {ps : List String} (hi : worker i = some ps) (c : Client) (σ : State) (v : User) (m : Nat) (hw : Worker ps m c v) :
    Working leader worker (fun j => if j = i then m else pending j) (w.set i c σ) ⟨fun j => if j = i then v else u.users j, σ⟩ := by
  have hne : leader ≠ i := by rintro rfl; rw [hl] at hi; cases hi
  refine ⟨by rw [set_there w c σ hne]; exact h.leader, rfl, fun j qs hj => ?_⟩
  by_cases e : j = i
  · subst e
    rw [hi] at hj
    cases hj
    rw [set_here, if_pos rfl]
    dsimp only
    rw [if_pos rfl]
    exact hw
  · rw [set_there w c σ e, if_neg e]
    dsimp only
    rw [if_neg e]
    exact h.workers j qs hj

/-- The user stays. -/
theorem Users.same (u : Users ι) (i : ι) : (⟨fun j => if j = i then u.users i else u.users j, u.memory⟩ : Users ι) = u := by
  obtain ⟨us, m⟩ := u
  congr
  funext j
  dsimp only
  split
  · next h => rw [h]
  · rfl

theorem working_step {n : Nat} {programs : ι → Program' ι} {leader : ι} {worker : ι → Option (List String)} {pending : ι → Nat} {w : Clients ι} {u : Users ι}
    (h : Working leader worker pending w u) (hl : worker leader = none) (hp : ∀ j ps, worker j = some ps → programs j = borrower leader ps) {i : ι} {ps : List String}
    (hi : worker i = some ps) :
    (pending i ≠ 0 ∧ Working leader worker (fun j => if j = i then pending i - 1 else pending j) (w.step n programs i) u) ∨
    (pending i = 0 ∧ Working leader worker (fun j => if j = i then 0 else pending j) (w.step n programs i) (u.step n i)) := by
  have hw := h.workers i ps hi
  have hprog := hp i ps hi
  unfold Clients.step
  generalize hk : pending i = k at hw ⊢
  generalize hc : w.clients i = c at hw ⊢
  generalize hv : u.users i = v at hw
  cases hw with
  | first =>
    refine .inl ⟨by decide, ?_⟩
    have e : programs i (Client.seen .fresh) = some (.borrow leader 0) := by rw [hprog]; rfl
    dsimp only [Client.fresh]
    rw [show programs i (Client.seen ⟨[], none⟩) = _ from e]
    dsimp only
    have eb : (Request.borrow leader 0).begin n (fun j => (w.clients j).got) i = .done (.obj 0) := by
      unfold Request.begin
      dsimp only
      rw [h.leader]
      rfl
    rw [eb]
    have := h.update hl hi ⟨[], some (.done (.obj 0))⟩ u.memory (u.users i) 1 (by rw [hv]; exact .second)
    rw [Users.same] at this
    rw [h.memory]
    exact this
  | second =>
    refine .inl ⟨by decide, ?_⟩
    dsimp only [R.result]
    have := h.update hl hi ⟨[.ok (.obj 0)], none⟩ u.memory (u.users i) 0 (by rw [hv]; exact .idle [])
    rw [Users.same] at this
    rw [h.memory]
    exact this
  | idle got =>
    refine .inr ⟨rfl, ?_⟩
    have e : programs i (Client.seen ⟨.ok (.obj 0) :: got, none⟩) = (ps[got.length]?).map (.get 0 ·) := by
      rw [hprog]
      unfold borrower Client.seen
      rw [List.length_map, List.length_cons]
    dsimp only
    rw [e]
    unfold Users.step User.step
    rw [hv]
    dsimp only
    cases hg : ps[got.length]? with
    | none =>
      have : ps.drop got.length = [] := List.drop_eq_nil_of_le (List.getElem?_eq_none_iff.1 hg)
      rw [this]
      dsimp only [Option.map, List.map]
      have := h.update hl hi ⟨.ok (.obj 0) :: got, none⟩ u.memory (u.users i) 0 (by rw [hv]; exact .idle got)
      rw [hv, show ps.drop got.length = [] from ‹_›] at this
      refine ⟨this.leader |> fun _ => h.leader, h.memory, fun j qs hj => ?_⟩
      have hw := this.workers j qs hj
      by_cases e : j = i
      · subst e
        rw [set_here] at hw
        rw [hc]
        exact hw
      · rw [set_there w _ _ e] at hw
        exact hw
    | some p =>
      have hlt := (List.getElem?_eq_some_iff.1 hg).1
      have hd : ps.drop got.length = p :: ps.drop (got.length + 1) := by
        rw [List.drop_eq_getElem_cons hlt]
        congr 1
        exact (List.getElem?_eq_some_iff.1 hg).2
      rw [hd]
      dsimp only [Option.map, List.map]
      have eb : (Request.get 0 p).begin n (fun j => (w.clients j).got) i = getattr (calls library n) (.obj 0) p := by
        unfold Request.begin
        dsimp only
        rw [hc]
        rfl
      rw [eb, h.memory]
      exact h.update hl hi _ u.memory _ 0 (.busy got _)
  | busy got q =>
    refine .inr ⟨rfl, ?_⟩
    unfold Users.step User.step
    rw [hv]
    dsimp only
    cases hq : q.result with
    | some a =>
      dsimp only
      rw [h.memory]
      have := Worker.idle (ps := ps) (got ++ [a])
      rw [List.length_append] at this
      exact h.update hl hi _ u.memory _ 0 this
    | none =>
      dsimp only
      rw [h.memory]
      exact h.update hl hi _ _ _ 0 (.busy got _)

theorem leader_step {n : Nat} {programs : ι → Program' ι} {leader : ι} {name : String} {b : Bytes} (hp : programs leader = visit name b []) {w : Clients ι}
    (h : w.clients leader = ⟨[.ok (.obj 0)], none⟩) : w.step n programs leader = w := by
  unfold Clients.step
  rw [h, hp]
  rfl

theorem working_run {n : Nat} {programs : ι → Program' ι} {leader : ι} {worker : ι → Option (List String)} {name : String} {b : Bytes}
    (hd : programs leader = visit name b []) (hl : worker leader = none) (hp : ∀ j ps, worker j = some ps → programs j = borrower leader ps) :
    ∀ (rest : List ι), (∀ i ∈ rest, i = leader ∨ (worker i).isSome) → ∀ (pending : ι → Nat) (w : Clients ι) (u : Users ι), Working leader worker pending w u →
      ∃ (turns : List ι) (pending' : ι → Nat), Working leader worker pending' (w.run n programs rest) (u.run n turns) ∧
        ∀ j, (worker j).isSome → pending' j ≤ pending j ∧ rest.count j + pending' j ≤ turns.count j + pending j ∧ (pending' j ≠ 0 → turns.count j = 0)
  | [], _, pending, w, u, h => ⟨[], pending, h, fun j _ => ⟨Nat.le_refl _, Nat.le_refl _, fun _ => rfl⟩⟩
  | i :: rest, team, pending, w, u, h => by
    have team' := fun j hj => team j (List.mem_cons_of_mem i hj)
    rcases team i (by simp) with rfl | hi
    · obtain ⟨turns, pending', h1, h2⟩ := working_run hd hl hp rest team' pending w u h
      refine ⟨turns, pending', ?_, fun j hj => ?_⟩
      · rw [Clients.run, List.foldl_cons, leader_step hd h.leader]
        exact h1
      · have : i ≠ j := by rintro rfl; rw [hl] at hj; cases hj
        rw [List.count_cons_of_ne this]
        exact h2 j hj
    · obtain ⟨ps, hi⟩ := Option.isSome_iff_exists.1 hi
      rcases working_step (n := n) h hl hp hi with ⟨h0, h1⟩ | ⟨h0, h1⟩
      · obtain ⟨turns, pending', h2, h3⟩ := working_run hd hl hp rest team' _ _ _ h1
        refine ⟨turns, pending', h2, fun j hj => ?_⟩
        obtain ⟨a, b, c⟩ := h3 j hj
        by_cases e : j = i
        · subst e
          rw [if_pos rfl] at a b
          rw [List.count_cons_self]
          exact ⟨by omega, by omega, c⟩
        · rw [if_neg e] at a b
          rw [List.count_cons_of_ne (Ne.symm e)]
          exact ⟨a, b, c⟩
      · obtain ⟨turns, pending', h2, h3⟩ := working_run hd hl hp rest team' _ _ _ h1
        refine ⟨i :: turns, pending', h2, fun j hj => ?_⟩
        obtain ⟨a, b, c⟩ := h3 j hj
        by_cases e : j = i
        · subst e
          rw [if_pos rfl] at a b
          rw [List.count_cons_self, List.count_cons_self]
          exact ⟨by omega, by omega, fun h => by omega⟩
        · rw [if_neg e] at a b
          rw [List.count_cons_of_ne (Ne.symm e), List.count_cons_of_ne (Ne.symm e)]
          exact ⟨a, b, c⟩

theorem others_run (n : Nat) (programs : ι → Program' ι) {j : ι} : ∀ (turns : List ι) (w : Clients ι), j ∉ turns → (w.run n programs turns).clients j = w.clients j
  | [], _, _ => rfl
  | i :: turns, w, h => by
    rw [List.mem_cons, not_or] at h
    rw [Clients.run, List.foldl_cons]
    exact (others_run n programs turns _ h.2).trans (other_step n programs w h.1)

/-- After the leader has decoded the packet. -/
theorem leader_done {name : String} {s : LazySpec} (known : (name, s) ∈ propertyClasses) {n : Nat} (hn : 13 ≤ n) {b : Bytes} {x : s.cls.Attrs}
    (h : Dmr.fromBytes s.cls.read b = .ok x) {programs : ι → Program' ι} {leader : ι} (hp : programs leader = visit name b []) (m : Nat)
    (hm : 1989 + 1392 * b.length ≤ m) :
    ∃ σ, Py.fromBytes library n name b = .ok (.obj 0) σ ∧ ((Clients.fresh ⟨[], []⟩).run n programs (List.replicate m leader)).clients leader = ⟨[.ok (.obj 0)], none⟩ ∧
      ((Clients.fresh ⟨[], []⟩).run n programs (List.replicate m leader)).memory = σ := by
  obtain ⟨σ, io, h1, -, -⟩ := decoded_kept known hn h
  have hd : ((decoding name b).thread n).run ⟨[], []⟩ = .ok (.obj 0) σ := by
    have := task_does (decoding name b) n
    rw [decoding_alone, h1] at this
    revert this
    cases ((decoding name b).thread n).run ⟨[], []⟩ with
    | ok v τ => rintro ⟨rfl, rfl⟩; rfl
    | raise e τ => exact False.elim
  have e : talk n (visit (ι := ι) name b []) leader 1 = ([.ok (.obj 0)], σ) := by
    show ([] ++ [(((decoding name b).thread n).run ⟨[], []⟩).result], (((decoding name b).thread n).run ⟨[], []⟩).memory) = _
    rw [hd]
    rfl
  have over : visit (ι := ι) name b [] ((talk n (visit (ι := ι) name b []) leader 1).1.map Answer.seen) = none := by rw [e]; rfl
  have need : needs n (visit (ι := ι) name b []) leader 1 ≤ 1988 + 1392 * b.length := by
    show 0 + ((decoding name b).thread n).ops ⟨[], []⟩ + 2 ≤ _
    have := decoding_ops name b n
    omega
  have need1 : ∀ k, needs n (visit (ι := ι) name b []) leader (k + 1) = needs n (visit (ι := ι) name b []) leader 1 := by
    intro k
    induction k with
    | zero => rfl
    | succ k ih => rw [needs, talk_over n _ leader (show 1 ≤ k + 1 by omega) over, over, ih]
  have need2 : ∀ k, needs n (visit (ι := ι) name b []) leader k < m := by
    intro k
    cases k with
    | zero => show 0 < m; omega
    | succ k => rw [need1]; omega
  have ht := talking n (programs := programs) (i := leader) (fun s j k hb => by
    rw [hp] at hb
    unfold visit at hb
    cases hs : s.length <;> rw [hs] at hb
    · cases hb
    · simp at hb) m 0 (Clients.fresh ⟨[], []⟩) (.idle 0 (.inl (Nat.zero_le _)))
  rw [Nat.zero_add, hp] at ht
  revert ht
  generalize ((Clients.fresh ⟨[], []⟩).run n programs (List.replicate m leader)).clients leader = c
  generalize ((Clients.fresh ⟨[], []⟩).run n programs (List.replicate m leader)).memory = τ
  intro ht
  cases ht with
  | idle k hk =>
    cases k with
    | zero =>
      rcases hk with hk | hk
      · exact absurd (need2 0) (by omega)
      · cases hk
    | succ k =>
      rw [talk_over n _ leader (show 1 ≤ k + 1 by omega) over, e]
      exact ⟨σ, h1, rfl, rfl⟩
  | busy k r hr q _ run hk =>
    have := need2 (k + 1)
    omega

theorem filter_only {team : ι → Bool} {i : ι} (hi : team i = true) : ∀ turns : List ι, (∀ j ∈ turns, team j = true → j = i) →
    turns.filter team = List.replicate (turns.count i) i
  | [], _ => rfl
  | j :: turns, h => by
    have ih := filter_only hi turns fun l hl => h l (List.mem_cons_of_mem j hl)
    by_cases e : j = i
    · subst e
      rw [List.filter_cons_of_pos hi, List.count_cons_self, List.replicate_succ, ih]
    · rw [List.count_cons_of_ne e, List.filter_cons_of_neg (fun ht => e (h j (by simp) ht)), ih]

end Threads

/-- **C71.** A packet that is shared: a client decodes it. When it has done so, other clients start, take the object over, and use its properties, all at the
same time. And in the same memory there are clients that have nothing to do with these: they may be anything and do anything. Each client of the team sees an
object, and then what the properties are specified to be. -/
theorem C71_shared (name : String) (s : LazySpec) (known : (name, s) ∈ propertyClasses) (n : Nat) (hn : 13 ≤ n) (b : Bytes) (x : s.cls.Attrs)
    (h : Dmr.fromBytes s.cls.read b = .ok x) (programs : ι → Program' ι) (leader : ι) (worker : ι → Option (List String)) (outside : worker leader = none)
    (leads : programs leader = visit name b []) (works : ∀ j ps, worker j = some ps → programs j = borrower leader ps)
    (valid : ∀ j ps, worker j = some ps → ∀ p ∈ ps, p ∈ s.cls.getters.map Prod.fst ∧ p ∉ notYet)
    (strangers : ∀ i, i ≠ leader → worker i = none → ∀ seen j k, programs i seen = some (.borrow j k) → j ≠ leader ∧ worker j = none)
    (old : State) (before after : List ι) (decoded : 1989 + 1392 * b.length ≤ before.count leader) (wait : ∀ j ∈ before, worker j = none)
    (i : ι) (ps : List String) (hi : worker i = some ps) (enough : 25 * ps.length + 2 ≤ after.count i) :
    (((Clients.fresh old).run n programs (before ++ after)).clients i).seen = .ok .object :: ps.map (fun p => (s.value x b p).map look) := by
  have hli : leader ≠ i := by rintro rfl; rw [outside] at hi; cases hi
  let team : ι → Bool := fun j => decide (j = leader ∨ (worker j).isSome)
  have tl : team leader = true := by simp [team]
  have ti : team i = true := by simp [team, hi]
  have h1 := (C71_teams n programs team (fun l seen j k hb => by
    by_cases hl : l = leader
    · subst hl
      rw [leads] at hb
      unfold visit at hb
      cases hs : seen.length <;> rw [hs] at hb
      · cases hb
      · simp at hb
    · cases hw : worker l with
      | none =>
        have := strangers l hl hw seen j k hb
        simp [team, hl, hw, this.1, this.2]
      | some qs =>
        rw [works l qs hw] at hb
        unfold borrower at hb
        cases hs : seen.length <;> rw [hs] at hb
        · cases hb
          rw [tl]
          simp [team, hw]
        · simp at hb) old (before ++ after) i).1
  rw [h1, ti]
  have hf : ∀ l : List ι, (l.filter fun j => decide (team j = true)) = l.filter team := fun l => by
    congr
    funext j
    cases team j <;> rfl
  rw [List.filter_append, hf, hf, Threads.filter_only tl before (fun j hj ht => by
    have := wait j hj
    simpa [team, this] using ht)]
  obtain ⟨σ, d1, d2, d3⟩ := Threads.leader_done known hn h leads (before.count leader) decoded
  have start : Threads.Working leader worker (fun _ => 2) ((Clients.fresh ⟨[], []⟩).run n programs (List.replicate (before.count leader) leader))
      ⟨fun j => .start (((worker j).getD []).map fun p => (0, p)), σ⟩ := by
    refine ⟨d2, d3, fun j qs hj => ?_⟩
    rw [Threads.others_run n programs _ _ (fun hm => by
      have := List.eq_of_mem_replicate hm
      subst this
      rw [outside] at hj; cases hj)]
    dsimp only
    rw [hj]
    exact .first
  obtain ⟨turns, pending, w1, w2⟩ := Threads.working_run leads outside works (after.filter team) (fun j hj => by
    have := (List.mem_filter.1 hj).2
    simpa [team] using this) _ _ _ start
  obtain ⟨-, w4, w5⟩ := w2 i (by rw [hi]; rfl)
  have w3 := w1.workers i ps hi
  have hcount : (after.filter team).count i = after.count i := List.count_filter ti
  rw [hcount] at w4
  have hpend : pending i = 0 := by
    by_contra hne
    have := w5 hne
    omega
  obtain ⟨σ', e1, -, e3⟩ := C70_packet name s known n hn b x h (fun j => (worker j).getD []) (fun j p hp => by
    cases hw : worker j with
    | none => rw [hw] at hp; simp at hp
    | some qs => rw [hw] at hp; exact valid j qs hw p hp)
  rw [d1] at e1
  cases e1
  have e3 := e3 turns i (by rw [hi]; dsimp only [Option.getD]; omega)
  have hrun : ((Clients.fresh ⟨[], []⟩).run n programs (List.replicate (before.count leader) leader ++ after.filter team)) =
      ((Clients.fresh ⟨[], []⟩).run n programs (List.replicate (before.count leader) leader)).run n programs (after.filter team) := by
    unfold Clients.run
    rw [List.foldl_append]
  rw [hrun]
  rw [hpend] at w3
  rw [hi] at e3
  have fin : ∀ got : List Answer, got = ps.map (fun p => (s.value x b p).map Val.pv) →
      (Answer.seen (.ok (.obj 0)) :: got.map Answer.seen) = .ok .object :: ps.map (fun p => (s.value x b p).map look) := by
    rintro got rfl
    rw [List.map_map]
    refine congrArg₂ _ rfl (List.map_congr_left fun p hp => ?_)
    have hv := valid i ps hi p hp
    dsimp only [Function.comp]
    cases hs : s.value x b p with
    | error e => rfl
    | ok v =>
      have := value_plain name s known x b p (by rintro rfl; exact hv.2 (by decide)) v hs
      show Except.ok _ = Except.ok _
      cases v with
      | struct c vs => exact absurd rfl (this.1 c vs)
      | list l => exact absurd rfl (this.2 l)
      | _ => rfl
  revert w3 e3
  generalize (((Clients.fresh ⟨[], []⟩).run n programs (List.replicate (before.count leader) leader)).run n programs (after.filter team)).clients i = c
  generalize hu : (Users.run n _ turns).users i = u
  intro w3 e3
  cases w3 with
  | idle got => exact fin got e3
  | busy got q => exact fin got e3

/-! ### Four clients -/

/-- The first client decodes the address 10.0.0.80; the second and the third one use it. The fourth one decodes a refusal of a master, and uses a property
that uses the stream. -/
def four : Fin 4 → Program' (Fin 4)
  | 0 => visit "Hytera.RadioIp" [10, 0, 0, 80] []
  | 1 => borrower 0 ["radio_id", "radio_ip"]
  | 2 => borrower 0 ["radio_ip"]
  | 3 => visit "Homebrew.Homebrew2015" aRefusal ["fifth_letter", "fifth_letter"]

theorem visit_borrows {name : String} {b : Bytes} {ps : List String} {s : List (Except PyErr Seen)} {j : ι} {k : Nat} : visit name b ps s ≠ some (.borrow j k) := by
  intro hb
  unfold visit at hb
  cases hs : s.length <;> rw [hs] at hb
  · cases hb
  · simp at hb

theorem borrower_borrows {l : ι} {ps : List String} {s : List (Except PyErr Seen)} {j : ι} {k : Nat} (hb : borrower l ps s = some (.borrow j k)) : j = l := by
  unfold borrower at hb
  cases hs : s.length <;> rw [hs] at hb
  · cases hb; rfl
  · simp at hb

/-- However they take turns, and whatever else is in the memory: the second client sees an object, 80, and the text. -/
example (old : State) (before after : List (Fin 4)) (h : 7557 ≤ before.count 0) (h1 : 1 ∉ before) (h2 : 2 ∉ before) (enough : 52 ≤ after.count 1) :
    (((Clients.fresh old).run 13 four (before ++ after)).clients 1).seen = [.ok .object, .ok (.plain (.int 80)), .ok (.plain (.str "10.0.0.80".toList))] := by
  let worker : Fin 4 → Option (List String) := fun i => if i = 1 then some ["radio_id", "radio_ip"] else if i = 2 then some ["radio_ip"] else none
  have hw : ∀ j ps, worker j = some ps → (j = 1 ∧ ps = ["radio_id", "radio_ip"]) ∨ (j = 2 ∧ ps = ["radio_ip"]) := by
    intro j ps hj
    dsimp only [worker] at hj
    split at hj
    · next e => cases hj; exact .inl ⟨e, rfl⟩
    · split at hj
      · next e => cases hj; exact .inr ⟨e, rfl⟩
      · cases hj
  refine C71_shared "Hytera.RadioIp" ⟨radioIpClass, radioIpValue⟩ (List.mem_of_getElem? (i := 0) rfl) 13 (Nat.le_refl _) [10, 0, 0, 80] ⟨10, 0, 0, 80⟩ (by decide +kernel)
    four 0 worker rfl rfl (fun j ps hj => ?_) (fun j ps hj p hp => ?_) (fun i hi hn seen j k hb => ?_) old before after h (fun j hj => ?_) 1 ["radio_id", "radio_ip"] rfl
    (by simpa using enough)
  · rcases hw j ps hj with ⟨rfl, rfl⟩ | ⟨rfl, rfl⟩ <;> rfl
  · have : p = "radio_id" ∨ p = "radio_ip" := by rcases hw j ps hj with ⟨rfl, rfl⟩ | ⟨rfl, rfl⟩ <;> simp at hp <;> tauto
    rcases this with rfl | rfl <;> decide +kernel
  · have : i = 3 := (by decide : ∀ i : Fin 4, i ≠ 0 → worker i = none → i = 3) i hi hn
    subst this
    exact absurd hb visit_borrows
  · cases hj' : worker j with
    | none => rfl
    | some ps =>
      rcases hw j ps hj' with ⟨rfl, -⟩ | ⟨rfl, -⟩
      · exact absurd hj h1
      · exact absurd hj h2

/-- And the fourth one sees the fifth letter, twice. -/
example : ∃ N, ∀ (old : State) (turns : List (Fin 4)), N ≤ turns.count 3 →
    (((Clients.fresh old).run 13 four turns).clients 3).seen = [.ok .object, .ok (.plain (.str ['A'])), .ok (.plain (.str ['A']))] := by
  obtain ⟨x, hx⟩ : ∃ x, Dmr.fromBytes Homebrew.Homebrew2015.read aRefusal = .ok x := by
    have : (Dmr.fromBytes Homebrew.Homebrew2015.read aRefusal).toBool = true := by decide +kernel
    revert this
    cases Dmr.fromBytes Homebrew.Homebrew2015.read aRefusal with
    | ok x => exact fun _ => ⟨x, rfl⟩
    | error e => exact fun h => by cases h
  obtain ⟨N, hN⟩ := C71_packet (ι := Fin 4) "Homebrew.Homebrew2015" ⟨homebrewClass, fun _ => fifthLetterValue⟩ (List.mem_of_getElem? (i := 11) rfl) 13 (Nat.le_refl _) aRefusal x hx
    ["fifth_letter", "fifth_letter"] (by decide +kernel) 3
  refine ⟨N, fun old turns enough => ((hN four rfl ⟨fun s j k => visit_borrows, fun j s k hb => ?_⟩ old turns).2 enough).trans ?_⟩
  · match j with
    | 0 => exact visit_borrows hb
    | 1 => exact absurd (borrower_borrows hb) (by decide)
    | 2 => exact absurd (borrower_borrows hb) (by decide)
    | 3 => exact visit_borrows hb
  · rfl

end Dmr.Py
