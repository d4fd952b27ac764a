import Verif.Py.ThreadsTime
import Verif.Props.SourceTime
import Verif.Props.Source
/-
C69: threads that share nothing but the memory do not disturb each other, however their steps are mixed.

The steps are those of Verif/Py/Threads: making an object or a stream, looking at an object, assigning an attribute, using a stream.
-/

set_option autoImplicit false

namespace Dmr.Py

open Threads (R World)

/-- What a thread runs: a function (of the language of Verif/Py/Syntax, and it can use all of the library) with plain arguments. -/
structure Task where
  fn : Function
  args : List PyVal

/-- The task as a thread. -/
def Task.thread (t : Task) (n : Nat) : R Val := Threads.call library (Threads.calls library n) t.fn (t.args.map .pv)

/-- What the task leads to if it is run alone, in an empty memory, as Verif/Py/Semantics says. -/
def Task.alone (t : Task) (n : Nat) : Out Val := (t.fn.call library (calls library n) (t.args.map .pv)).run ⟨[], []⟩

/-- One thread for each task, and the memory `old`. -/
def together {ι : Type} (tasks : ι → Task) (n : Nat) (old : State) : World ι Val := ⟨fun i => (tasks i).thread n, old⟩

mutual
/-- The value with other addresses. -/
def Val.moved (f g : Nat → Nat) : Val → Val
  | .obj r => .obj (f r)
  | .io k => .io (g k)
  | .list l => .list (movedAll f g l)
  | .pv v => .pv v
  | .file b => .file b
/-- Item by item. -/
def movedAll (f g : Nat → Nat) : List Val → List Val
  | [] => []
  | v :: l => v.moved f g :: movedAll f g l
end

/-- The object with other addresses. -/
def Obj.moved (f g : Nat → Nat) (o : Obj) : Obj := ⟨o.cls, o.attrs.map fun a => (a.1, a.2.moved f g)⟩

/-- All objects and streams of `σ` are in `τ` as well, at the addresses `f` and `g`. -/
structure Copied (f g : Nat → Nat) (σ τ : State) : Prop where
  objects : ∀ (r : Nat) (o : Obj), σ.heap[r]? = some o → τ.heap[f r]? = some (o.moved f g)
  streams : ∀ (k : Nat) (s : Stream), σ.streams[k]? = some s → τ.streams[g k]? = some s

variable {ι : Type} [DecidableEq ι]

namespace Threads

/-- The addresses. -/
def Ren.f (ρ : Ren) (r : Nat) : Nat := ρ.obj[r]?.getD 0
def Ren.g (ρ : Ren) (k : Nat) : Nat := ρ.io[k]?.getD 0

mutual
theorem Corr.eq {ρ : Ren} {v w : Val} : Corr ρ v w → w = v.moved ρ.f ρ.g
  | .pv v => rfl
  | .file b => rfl
  | .obj h => by rw [Val.moved, Ren.f, h]; rfl
  | .io h => by rw [Val.moved, Ren.g, h]; rfl
  | .list h => by rw [Val.moved, Corrs.eq h]
theorem Corrs.eq {ρ : Ren} {v w : List Val} : Corrs ρ v w → w = movedAll ρ.f ρ.g v
  | .nil => rfl
  | .cons h hs => by rw [movedAll, ← Corr.eq h, ← Corrs.eq hs]
end

theorem Dict.eq {ρ : Ren} {v w : List (String × Val)} (h : Dict ρ v w) : w = v.map fun a => (a.1, a.2.moved ρ.f ρ.g) := by
  induction h with
  | nil => rfl
  | cons h _ ih => rw [List.map_cons, ← ih, h.eq]

theorem ObjCorr.eq {ρ : Ren} {o p : Obj} (h : ObjCorr ρ o p) : p = o.moved ρ.f ρ.g := by
  obtain ⟨c, a⟩ := o
  obtain ⟨c', a'⟩ := p
  obtain ⟨h1, h2⟩ := h
  dsimp only at h1 h2
  rw [Obj.moved, h1, h2.eq]

theorem Mem.copied {ρ : Ren} {σ τ : State} (h : Mem ρ σ τ) : Copied ρ.f ρ.g σ τ := by
  refine ⟨fun r o ho => ?_, fun k s hs => ?_⟩
  · have hl := (List.getElem?_eq_some_iff.1 ho).1
    rw [h.heap] at hl
    obtain ⟨a, b, ha, hb, hab⟩ := h.objs r _ (List.getElem?_eq_getElem hl)
    rw [ho] at ha
    cases ha
    rw [Ren.f, List.getElem?_eq_getElem hl, Option.getD_some, hb, hab.eq]
  · have hl := (List.getElem?_eq_some_iff.1 hs).1
    rw [h.streams] at hl
    obtain ⟨a, ha, hb⟩ := h.ios k _ (List.getElem?_eq_getElem hl)
    rw [hs] at ha
    cases ha
    rw [Ren.g, List.getElem?_eq_getElem hl, Option.getD_some, hb]

end Threads

open Threads

theorem task_sim (t : Task) (n : Nat) : Sim Corr ⟨[], []⟩ (t.thread n) (t.thread n) := sim_call library (sim_calls library n) t.fn (corrs_plain _ t.args)

theorem task_does (t : Task) (n : Nat) : Alike ((t.thread n).run ⟨[], []⟩) (t.alone n) := call_same library (calls_same library n) t.fn _ _

/-- What is known about the threads after some steps. -/
theorem task_done {tasks : ι → Task} {n : Nat} {old : State} {turns : List ι} {ρ : ι → Ren}
    (h : Apart old (fun i => (tasks i).thread n) turns ((together tasks n old).run turns) ρ) {i : ι} {w : Val}
    (hw : ((together tasks n old).run turns).threads i = .done w) :
    ∃ v σ, (tasks i).alone n = .ok v σ ∧ Corr (ρ i) v w ∧ Mem (ρ i) σ ((together tasks n old).run turns).memory := by
  have hs := h.sim i
  have hm := h.mem i
  have hr := steps_run (turns.count i) ((tasks i).thread n, ⟨[], []⟩)
  have hd := task_does (tasks i) n
  rw [hw] at hs
  revert hs hm hr
  rcases R.steps (turns.count i) ((tasks i).thread n, ⟨[], []⟩) with ⟨p, σ⟩
  intro hs hm hr
  cases hs with
  | done hv =>
    dsimp only at hr hm
    rw [← hr] at hd
    revert hd
    rw [R.run]
    cases (tasks i).alone n with
    | ok b υ => rintro ⟨rfl, rfl⟩; exact ⟨_, _, rfl, hv, hm⟩
    | raise e υ => exact False.elim

/-- C69. If a thread has returned, whatever the other threads did meanwhile, then its function returns if it is run alone too, and what it
returned looks the same. (And it stays so, since the order of the turns is arbitrary.) -/
theorem C69_returns (tasks : ι → Task) (n : Nat) (old : State) (turns : List ι) (i : ι) (w : Val)
    (h : ((together tasks n old).run turns).threads i = .done w) :
    ∃ v σ, (tasks i).alone n = .ok v σ ∧ ∃ f g, w = v.moved f g ∧ Copied f g σ ((together tasks n old).run turns).memory := by
  obtain ⟨ρ, hρ⟩ := apart (start := fun i => (tasks i).thread n) (fun i => task_sim (tasks i) n) old turns
  obtain ⟨v, σ, h1, h2, h3⟩ := task_done hρ h
  exact ⟨v, σ, h1, (ρ i).f, (ρ i).g, h2.eq, h3.copied⟩

/-- C69. If it has raised an exception, then it raises the same one alone. -/
theorem C69_raises (tasks : ι → Task) (n : Nat) (old : State) (turns : List ι) (i : ι) (e : PyErr)
    (h : ((together tasks n old).run turns).threads i = .raise e) : ∃ σ, (tasks i).alone n = .raise e σ := by
  obtain ⟨ρ, hρ⟩ := apart (start := fun i => (tasks i).thread n) (fun i => task_sim (tasks i) n) old turns
  have hs := hρ.sim i
  have hr := steps_run (turns.count i) ((tasks i).thread n, ⟨[], []⟩)
  have hd := task_does (tasks i) n
  change Sim Corr _ _ (((together tasks n old).run turns).threads i) at hs
  rw [h] at hs
  revert hr hs
  rcases R.steps (turns.count i) ((tasks i).thread n, ⟨[], []⟩) with ⟨p, σ⟩
  intro hr hs
  cases hs with
  | raise e =>
    dsimp only at hr
    rw [← hr] at hd
    revert hd
    rw [R.run]
    cases (tasks i).alone n with
    | ok b υ => exact False.elim
    | raise e' υ => rintro ⟨rfl, -⟩; exact ⟨_, rfl⟩

/-- C69. The threads have no object in common, and no stream: what two threads have returned is in different places. -/
theorem C69_apart (tasks : ι → Task) (n : Nat) (old : State) (turns : List ι) :
    ∃ f g : ι → Nat → Nat, ∀ i w, ((together tasks n old).run turns).threads i = .done w → ∃ v σ, (tasks i).alone n = .ok v σ ∧ w = v.moved (f i) (g i) ∧
      Copied (f i) (g i) σ ((together tasks n old).run turns).memory ∧
      ∀ j w', ((together tasks n old).run turns).threads j = .done w' → ∀ v' σ', (tasks j).alone n = .ok v' σ' →
        (∀ r s, r < σ.heap.length → s < σ'.heap.length → f i r = f j s → i = j ∧ r = s) ∧
        (∀ r s, r < σ.streams.length → s < σ'.streams.length → g i r = g j s → i = j ∧ r = s) := by
  obtain ⟨ρ, hρ⟩ := apart (start := fun i => (tasks i).thread n) (fun i => task_sim (tasks i) n) old turns
  refine ⟨fun i => (ρ i).f, fun i => (ρ i).g, fun i w h => ?_⟩
  obtain ⟨v, σ, h1, h2, h3⟩ := task_done hρ h
  refine ⟨v, σ, h1, h2.eq, h3.copied, fun j w' h' v' σ' hj => ?_⟩
  obtain ⟨v'', σ'', h1', -, h3'⟩ := task_done hρ h'
  rw [hj] at h1'
  cases h1'
  refine ⟨fun r s hr hs e => ?_, fun r s hr hs e => ?_⟩
  · rw [h3.heap] at hr
    rw [h3'.heap] at hs
    dsimp only [Ren.f] at e
    rw [List.getElem?_eq_getElem hr, List.getElem?_eq_getElem hs, Option.getD_some, Option.getD_some] at e
    by_cases hij : i = j
    · subst hij
      exact ⟨rfl, (List.getElem_inj h3.obj).1 e⟩
    · refine (hρ.obj i j hij _ (List.getElem_mem hr) ?_).elim
      rw [e]
      exact List.getElem_mem hs
  · rw [h3.streams] at hr
    rw [h3'.streams] at hs
    dsimp only [Ren.g] at e
    rw [List.getElem?_eq_getElem hr, List.getElem?_eq_getElem hs, Option.getD_some, Option.getD_some] at e
    by_cases hij : i = j
    · subst hij
      exact ⟨rfl, (List.getElem_inj h3.io).1 e⟩
    · refine (hρ.io i j hij _ (List.getElem_mem hr) ?_).elim
      rw [e]
      exact List.getElem_mem hs

/-- C69. What was in the memory before is not touched. -/
theorem C69_old (tasks : ι → Task) (n : Nat) (old : State) (turns : List ι) :
    (∀ (r : Nat) o, old.heap[r]? = some o → ((together tasks n old).run turns).memory.heap[r]? = some o) ∧
    (∀ (k : Nat) s, old.streams[k]? = some s → ((together tasks n old).run turns).memory.streams[k]? = some s) := by
  obtain ⟨ρ, hρ⟩ := apart (start := fun i => (tasks i).thread n) (fun i => task_sim (tasks i) n) old turns
  refine ⟨fun r o h => ?_, fun k s h => ?_⟩
  · rw [← h]
    exact hρ.kept.objs r (List.getElem?_eq_some_iff.1 h).1 (by simp)
  · rw [← h]
    exact hρ.kept.ios k (List.getElem?_eq_some_iff.1 h).1 (by simp)

theorem sim_ended {α β : Type} {Q : Ren → α → β → Prop} {ρ : Ren} {p : R α} {q : R β} (h : Sim Q ρ p q) : p.ended = q.ended := by cases h <;> rfl

theorem ended_after (tasks : ι → Task) (n : Nat) (old : State) (turns : List ι) (i : ι) (h : ((tasks i).thread n).ops ⟨[], []⟩ ≤ turns.count i) :
    (((together tasks n old).run turns).threads i).ended = true := by
  obtain ⟨ρ, hρ⟩ := apart (start := fun i => (tasks i).thread n) (fun i => task_sim (tasks i) n) old turns
  have hs := hρ.sim i
  change Sim Corr _ _ (((together tasks n old).run turns).threads i) at hs
  rw [← sim_ended hs]
  exact steps_ended _ _ h

/-- C69. No thread can keep another one from coming to its end: for each task there is a number of turns that is enough, whatever the other
threads are, and whatever they do. -/
theorem C69_ends (t : Task) (n : Nat) : ∃ N, ∀ {ι : Type} [DecidableEq ι] (tasks : ι → Task) (old : State) (turns : List ι) (i : ι), tasks i = t →
    N ≤ turns.count i → (((together tasks n old).run turns).threads i).ended = true :=
  ⟨(t.thread n).ops ⟨[], []⟩, fun tasks old turns i e h => ended_after tasks n old turns i (by rw [e]; exact h)⟩

/-- `cls.from_bytes(data)`: `return cls(KaitaiStream(BytesIO(data)))` (of the package kaitaistruct). -/
def decoding (cls : String) (b : Bytes) : Task :=
  ⟨⟨["data"], [.return_ (.call (.cls cls) [.call (.global "KaitaiStream") [.call (.global "BytesIO") [.name "data"]]])]⟩, [.bytes b]⟩

theorem opened (c : Calls) (b : Bytes) (σ : State) :
    (evals library c [("data", .pv (.bytes b))] [.call (.global "KaitaiStream") [.call (.global "BytesIO") [.name "data"]]]).run σ =
      .ok [.io σ.streams.length] ⟨σ.heap, σ.streams ++ [Stream.new b]⟩ := by
  simp only [evals, eval]
  rfl

theorem opened_steps (c : Time.Calls) (b : Bytes) (σ : State) :
    (Time.evals library c [("data", .pv (.bytes b))] [.call (.global "KaitaiStream") [.call (.global "BytesIO") [.name "data"]]]).run σ =
      (3, .ok [.io σ.streams.length] ⟨σ.heap, σ.streams ++ [Stream.new b]⟩) := by
  simp only [Time.evals, Time.eval]
  rfl

theorem decoding_alone (cls : String) (b : Bytes) (n : Nat) : (decoding cls b).alone n = fromBytes library n cls b := by
  have h := opened (calls library n) b ⟨[], []⟩
  unfold Task.alone decoding Function.call fromBytes
  rw [execs, exec, eval]
  show Out.bind (Out.bind (Out.bind (Out.bind ((evals library (calls library n) [("data", .pv (.bytes b))]
    [.call (.global "KaitaiStream") [.call (.global "BytesIO") [.name "data"]]]).run ⟨[], []⟩) _) _) _) _ = _
  rw [h]
  show Out.bind (Out.bind (Out.bind (((calls library n).construct cls [.io 0]).run ⟨[], [Stream.new b]⟩) _) _) _ = _
  cases ((calls library n).construct cls [.io 0]).run ⟨[], [Stream.new b]⟩ <;> rfl

theorem bind_le {α β : Type} {m : Time.T α} {f : α → Time.T β} {σ : State} {x y : Nat} (h : (m.run σ).1 ≤ x) (k : ∀ a τ, (m.run σ).2 = .ok a τ → ((f a).run τ).1 ≤ y) :
    ((m >>= f).run σ).1 ≤ x + y := by
  rw [Time.run_bind]
  revert h k
  rcases m.run σ with ⟨t, ⟨a, τ⟩ | ⟨e, τ⟩⟩ <;> intro h k
  · exact Nat.add_le_add h (k a τ rfl)
  · exact Nat.le_trans h (Nat.le_add_right _ _)

theorem decoding_steps (cls : String) (b : Bytes) (n : Nat) :
    ((Time.call library (Time.calls library n) (decoding cls b).fn ((decoding cls b).args.map .pv)).run ⟨[], []⟩).1 ≤ 5 + (657 + 464 * b.length) := by
  have h := opened_steps (Time.calls library n) b ⟨[], []⟩
  have hb := C68_from_bytes n cls b
  unfold steps Time.fromBytes at hb
  have he : ((Time.eval library (Time.calls library n) [("data", .pv (.bytes b))]
      (.call (.cls cls) [.call (.global "KaitaiStream") [.call (.global "BytesIO") [.name "data"]]])).run ⟨[], []⟩).1 ≤ 1 + (3 + (657 + 464 * b.length)) := by
    rw [Time.eval]
    refine bind_le (Nat.le_refl _) fun _ τ e => ?_
    cases e
    refine bind_le (x := 3) (by rw [h]) fun a τ e => ?_
    rw [h] at e
    cases e
    exact hb
  unfold decoding Time.call
  refine bind_le (x := 5 + (657 + 464 * b.length)) (y := 0) ?_ fun f τ _ => by cases f <;> exact Nat.le_refl _
  rw [Time.execs]
  refine bind_le (x := 5 + (657 + 464 * b.length)) (y := 0) ?_ fun f τ _ => by cases f <;> exact Nat.le_refl _
  rw [Time.exec]
  refine Nat.le_trans (bind_le (x := 1) (y := 1 + (3 + (657 + 464 * b.length))) (Nat.le_refl _) fun _ τ e => ?_) (by omega)
  cases e
  exact bind_le (y := 0) he fun _ _ _ => Nat.le_refl _

/-- C69. A thread that decodes has come to its end, whatever the other threads are and do, once it has had 1986 turns, and 1392 for each byte. -/
theorem C69_from_bytes_ends (tasks : ι → Task) (n : Nat) (old : State) (turns : List ι) (i : ι) (cls : String) (b : Bytes) (hi : tasks i = decoding cls b)
    (h : 1986 + 1392 * b.length ≤ turns.count i) : (((together tasks n old).run turns).threads i).ended = true := by
  refine ended_after tasks n old turns i ?_
  rw [hi]
  have := (call_pays library (calls_pay library n) (decoding cls b).fn ((decoding cls b).args.map .pv) ⟨[], []⟩).2
  have hs := decoding_steps cls b n
  unfold Task.thread
  omega

mutual
theorem Shows.moved {f g : Nat → Nat} {σ τ : State} (c : Copied f g σ τ) : ∀ {x : Val} {v : PyVal}, Shows σ.heap x v → Shows τ.heap (x.moved f g) v
  | _, _, .plain v h1 h2 => by rw [Val.moved]; exact .plain v h1 h2
  | _, _, .list e => by rw [Val.moved]; exact .list (ShowsItems.moved c e)
  | _, _, .object h e => by rw [Val.moved]; exact .object (c.objects _ _ h) (ShowsAttrs.moved c e)
theorem ShowsItems.moved {f g : Nat → Nat} {σ τ : State} (c : Copied f g σ τ) : ∀ {x : List Val} {v : List PyVal}, ShowsItems σ.heap x v → ShowsItems τ.heap (movedAll f g x) v
  | _, _, .nil => .nil
  | _, _, .cons e es => .cons (Shows.moved c e) (ShowsItems.moved c es)
theorem ShowsAttrs.moved {f g : Nat → Nat} {σ τ : State} (c : Copied f g σ τ) :
    ∀ {x : List (String × Val)} {v : List (String × PyVal)}, ShowsAttrs σ.heap x v → ShowsAttrs τ.heap (x.map fun a => (a.1, a.2.moved f g)) v
  | _, _, .nil => .nil
  | _, _, .link l es => .link l (ShowsAttrs.moved c es)
  | _, _, .cons l e es => .cons l (Shows.moved c e) (ShowsAttrs.moved c es)
end

/-- C69. A thread that decodes returns what `from_bytes` returns alone, with the same parts, attribute by attribute, whatever the other threads are and do. -/
theorem C69_from_bytes (tasks : ι → Task) (n : Nat) (old : State) (turns : List ι) (i : ι) (cls : String) (b : Bytes) (hi : tasks i = decoding cls b) (w : Val)
    (h : ((together tasks n old).run turns).threads i = .done w) :
    ∃ v σ, fromBytes library n cls b = .ok v σ ∧ ∀ t, Shows σ.heap v t → Shows ((together tasks n old).run turns).memory.heap w t := by
  obtain ⟨v, σ, ha, f, g, rfl, hc⟩ := C69_returns tasks n old turns i w h
  rw [hi, decoding_alone] at ha
  exact ⟨v, σ, ha, fun t ht => ht.moved hc⟩

/-- C69. Given its turns, a thread that decodes ends as the model says, whatever the other threads are and do: with the object that the model gives, or
with the exception that the model gives. -/
theorem C69_decodes (tasks : ι → Task) (n : Nat) (hn : 13 ≤ n) (old : State) (turns : List ι) (i : ι) (name : String) (M : Reader) (hM : (name, some M) ∈ table)
    (b : Bytes) (hi : tasks i = decoding name b) (h : 1986 + 1392 * b.length ≤ turns.count i) :
    match M.read (Stream.new b) with
    | (.ok x, _) => ∃ w, ((together tasks n old).run turns).threads i = .done w ∧ Shows ((together tasks n old).run turns).memory.heap w (M.toPy x)
    | (.error e, _) => ((together tasks n old).run turns).threads i = .raise e := by
  have he := C69_from_bytes_ends tasks n old turns i name b hi h
  have hr := C69_raises tasks n old turns i
  have hd := C69_from_bytes tasks n old turns i name b hi
  rw [hi, decoding_alone] at hr
  rcases hx : M.read (Stream.new b) with ⟨e | x, s⟩
  · have h' := C58_raises name M hM n hn b e s hx
    dsimp only
    revert he hr hd
    rw [h']
    cases ((together tasks n old).run turns).threads i with
    | done w => intro _ _ hd; obtain ⟨_, _, h, -⟩ := hd w rfl; cases h
    | raise e' => intro _ hr _; obtain ⟨_, h⟩ := hr e' rfl; cases h; rfl
    | _ => intro he; cases he
  · obtain ⟨heap, h', hs⟩ := C58_returns name M hM b x s hx
    have h' := h' n hn
    dsimp only
    revert he hr hd
    rw [h']
    cases ((together tasks n old).run turns).threads i with
    | done w =>
      intro _ _ hd
      obtain ⟨_, _, h, hw⟩ := hd w rfl
      cases h
      exact ⟨w, rfl, hw _ hs⟩
    | raise e' => intro _ hr _; obtain ⟨_, h⟩ := hr e' rfl; cases h
    | _ => intro he; cases he

/-- Two threads in turn: one decodes an address, the other one bytes that end too early. -/
def pair : Bool → Task := fun i => if i then decoding "Hytera.RadioIp" [10, 0, 0, 80] else decoding "Hytera.RadioIp" [10, 0]

def inTurn : List Bool := (List.replicate 8000 [true, false]).flatten

theorem inTurn_count (i : Bool) : inTurn.count i = 8000 := by
  unfold inTurn
  rw [List.count_flatten, List.map_replicate, List.sum_replicate_nat]
  cases i <;> rfl

example := C69_decodes pair 13 (by decide) ⟨[], []⟩ inTurn true "Hytera.RadioIp" ⟨_, Hytera.RadioIp.read, Hytera.RadioIp.toPy⟩ (List.mem_of_getElem? (i := 51) rfl)
  [10, 0, 0, 80] rfl (by rw [inTurn_count]; decide)

example : ((together pair 13 ⟨[], []⟩).run inTurn).threads false = .raise .eof := by
  have := C69_decodes pair 13 (by decide) ⟨[], []⟩ inTurn false "Hytera.RadioIp" ⟨_, Hytera.RadioIp.read, Hytera.RadioIp.toPy⟩ (List.mem_of_getElem? (i := 51) rfl)
    [10, 0] rfl (by rw [inTurn_count]; decide)
  have e : Hytera.RadioIp.read (Stream.new [10, 0]) = (.error .eof, ⟨[10, 0], 2, 0, 0⟩) := by decide +kernel
  dsimp only at this
  rw [e] at this
  exact this

/-- A function that decodes a packet and then uses a property of it; its thread ends too. -/
example := C69_ends ⟨⟨["data"], [.assign "x" (.call (.cls "Hytera.IpSiteConnectProtocol") [.call (.global "KaitaiStream") [.call (.global "BytesIO") [.name "data"]]]),
  .return_ (.attr (.name "x") "source_radio_id")]⟩, [.bytes []]⟩ 13

end Dmr.Py
