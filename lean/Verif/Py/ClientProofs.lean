import Verif.Py.Client
/-
Teams of clients that have nothing in common: what the others do does not concern a team.
-/

set_option autoImplicit false

namespace Dmr.Py.Threads

mutual
theorem Corr.seen {ρ : Ren} {v w : Val} : Corr ρ v w → v.seen = w.seen
  | .pv _ => rfl
  | .file _ => rfl
  | .obj _ => rfl
  | .io _ => rfl
  | .list h => by rw [Val.seen, Val.seen, Corrs.seen h]
theorem Corrs.seen {ρ : Ren} {v w : List Val} : Corrs ρ v w → seenAll v = seenAll w
  | .nil => rfl
  | .cons h hs => by rw [seenAll, seenAll, Corr.seen h, Corrs.seen hs]
end

/-- Corresponding answers. -/
inductive Ans (ρ : Ren) : Answer → Answer → Prop
  | ok {v w : Val} (h : Corr ρ v w) : Ans ρ (.ok v) (.ok w)
  | error (e : PyErr) : Ans ρ (.error e) (.error e)

/-- One by one. -/
inductive Answers (ρ : Ren) : List Answer → List Answer → Prop
  | nil : Answers ρ [] []
  | cons {a b : Answer} {l m : List Answer} (h : Ans ρ a b) (hs : Answers ρ l m) : Answers ρ (a :: l) (b :: m)

theorem Ans.mono {ρ τ : Ren} (l : ρ.Le τ) {a b : Answer} : Ans ρ a b → Ans τ a b
  | .ok h => .ok (h.mono l)
  | .error e => .error e

theorem Answers.mono {ρ τ : Ren} (l : ρ.Le τ) {a b : List Answer} (h : Answers ρ a b) : Answers τ a b := by
  induction h with
  | nil => exact .nil
  | cons h _ ih => exact .cons (h.mono l) ih

theorem Answers.seen {ρ : Ren} {a b : List Answer} (h : Answers ρ a b) : a.map Answer.seen = b.map Answer.seen := by
  induction h with
  | nil => rfl
  | cons h _ ih =>
    rw [List.map_cons, List.map_cons, ih]
    cases h with
    | ok h => unfold Answer.seen Except.map; dsimp only; rw [h.seen]
    | error e => rfl

theorem Answers.snoc {ρ : Ren} {a b : List Answer} (h : Answers ρ a b) {x y : Answer} (k : Ans ρ x y) : Answers ρ (a ++ [x]) (b ++ [y]) := by
  induction h with
  | nil => exact .cons k .nil
  | cons h _ ih => exact .cons h ih

/-- Both missing, or both there. -/
theorem Answers.at {ρ : Ren} {a b : List Answer} (h : Answers ρ a b) (k : Nat) :
    (a[k]? = none ∧ b[k]? = none) ∨ ∃ x y, a[k]? = some x ∧ b[k]? = some y ∧ Ans ρ x y := by
  induction h generalizing k with
  | nil => exact .inl ⟨rfl, rfl⟩
  | cons h _ ih =>
    cases k with
    | zero => exact .inr ⟨_, _, rfl, rfl, h⟩
    | succ k => exact ih k

theorem Corrs.at {ρ : Ren} {a b : List Val} (h : Corrs ρ a b) (k : Nat) :
    (a[k]? = none ∧ b[k]? = none) ∨ ∃ x y, a[k]? = some x ∧ b[k]? = some y ∧ Corr ρ x y := by
  induction a generalizing b k with
  | nil => cases h; exact .inl ⟨rfl, rfl⟩
  | cons v a ih =>
    cases h with
    | cons h hs =>
      cases k with
      | zero => exact .inr ⟨_, _, rfl, rfl, h⟩
      | succ k => exact ih hs k

/-- Corresponding clients. -/
inductive Now (ρ : Ren) : Option (R Val) → Option (R Val) → Prop
  | none : Now ρ none none
  | some {p q : R Val} (h : Sim Corr ρ p q) : Now ρ (some p) (some q)

structure ClientSim (ρ : Ren) (c d : Client) : Prop where
  got : Answers ρ c.got d.got
  now : Now ρ c.now d.now

theorem ClientSim.mono {ρ τ : Ren} (l : ρ.Le τ) {c d : Client} (h : ClientSim ρ c d) : ClientSim τ c d :=
  ⟨h.got.mono l, by
    obtain ⟨-, h⟩ := h
    revert h
    cases c.now <;> cases d.now <;> intro h
    · exact .none
    · cases h
    · cases h
    · cases h with
      | some h => exact .some (h.mono (fun _ _ _ _ l h => h.mono l) l)⟩

variable {ι : Type}

theorem ready_sim {ρ : Ren} {a b : Answer} (h : Ans ρ a b) : Sim Corr ρ a.ready b.ready := by
  cases h with
  | ok h => exact .done h
  | error e => exact .raise e

/-- Requests are begun in the same way. -/
theorem begin_sim {ρ : Ren} (n : Nat) {all all' : ι → List Answer} (i : ι) (r : Request ι) (own : Answers ρ (all i) (all' i))
    (others : ∀ j k, r = .borrow j k → Answers ρ (all j) (all' j)) : Sim Corr ρ (r.begin n all i) (r.begin n all' i) := by
  cases r with
  | decode cls b => exact sim_call library (sim_calls library n) (decoding cls b).fn (corrs_plain ρ (decoding cls b).args)
  | get k p =>
    unfold Request.begin
    dsimp only
    rcases own.at k with ⟨h, h'⟩ | ⟨a, b, h, h', hab⟩
    · rw [h, h']; exact .raise _
    · rw [h, h']
      cases hab with
      | ok hv => exact sim_getattr (sim_calls library n) hv p
      | error e => exact .raise _
  | item k m =>
    unfold Request.begin
    dsimp only
    rcases own.at k with ⟨h, h'⟩ | ⟨a, b, h, h', hab⟩
    · rw [h, h']; exact .raise _
    · rw [h, h']
      cases hab with
      | error e => exact .raise _
      | ok hv =>
        cases hv with
        | list hl =>
          dsimp only
          rcases hl.at m with ⟨h, h'⟩ | ⟨a, b, h, h', hab⟩
          · rw [h, h']; exact .raise _
          · rw [h, h']; exact .done hab
        | _ => exact .raise _
  | type k =>
    unfold Request.begin
    dsimp only
    rcases own.at k with ⟨h, h'⟩ | ⟨a, b, h, h', hab⟩
    · rw [h, h']; exact .raise _
    · rw [h, h']
      cases hab with
      | error e => exact .raise _
      | ok hv =>
        cases hv with
        | obj hr =>
          refine .fetch hr fun τ _ o p hop => ?_
          rw [hop.cls]
          exact .done (.pv _)
        | _ => exact .raise _
  | borrow j k =>
    unfold Request.begin
    dsimp only
    rcases (others j k rfl).at k with ⟨h, h'⟩ | ⟨a, b, h, h', hab⟩
    · rw [h, h']; exact .raise _
    · rw [h, h']; exact ready_sim hab

/-- They come to corresponding answers. -/
theorem result_sim {ρ : Ren} {p q : R Val} (h : Sim Corr ρ p q) :
    (p.result = none ∧ q.result = none) ∨ ∃ a b, p.result = some a ∧ q.result = some b ∧ Ans ρ a b := by
  cases h with
  | done h => exact .inr ⟨_, _, rfl, rfl, .ok h⟩
  | raise e => exact .inr ⟨_, _, rfl, rfl, .error e⟩
  | _ => exact .inl ⟨rfl, rfl⟩

variable [DecidableEq ι]

/-- The same step in two worlds. -/
theorem team_step {ρ : Ren} (n : Nat) {programs : ι → Program' ι} {v w : Clients ι} (team : ι → Prop)
    (hc : ∀ j, team j → ClientSim ρ (v.clients j) (w.clients j)) (hm : Mem ρ v.memory w.memory) (i : ι) (hi : team i)
    (borrows : ∀ s j k, programs i s = some (.borrow j k) → team j) :
    ∃ ρ', ρ.Le ρ' ∧ (∀ j, team j → ClientSim ρ' ((v.step n programs i).clients j) ((w.step n programs i).clients j)) ∧
      Mem ρ' (v.step n programs i).memory (w.step n programs i).memory ∧ Only ρ w.memory (w.step n programs i).memory ∧ Fresh ρ ρ' w.memory := by
  have set : ∀ {τ : Ren} (_ : ρ.Le τ) (c d : Client) (σ σ' : State), ClientSim τ c d → ∀ j, team j → ClientSim τ ((v.set i c σ).clients j) ((w.set i d σ').clients j) := by
    intro τ l c d σ σ' h j hj
    unfold Clients.set
    dsimp only
    by_cases e : j = i
    · rw [if_pos e, if_pos e]; exact h
    · rw [if_neg e, if_neg e]; exact (hc j hj).mono l
  have stay : ρ.Le ρ := Ren.Le.refl ρ
  obtain ⟨hg, hn⟩ := hc i hi
  unfold Clients.step
  revert hn
  cases h1 : (v.clients i).now <;> cases h2 : (w.clients i).now <;> intro hn
  · dsimp only
    have hs : (v.clients i).seen = (w.clients i).seen := hg.seen
    rw [hs]
    cases hp : programs i (w.clients i).seen with
    | none => exact ⟨ρ, stay, hc, hm, Only.refl _ _, Fresh.refl _ _⟩
    | some r =>
      dsimp only
      refine ⟨ρ, stay, set stay _ _ _ _ ⟨hg, .some (begin_sim n i r hg ?_)⟩, hm, Only.refl _ _, Fresh.refl _ _⟩
      rintro j k rfl
      exact (hc j (borrows _ j k hp)).got
  · cases hn
  · cases hn
  · next p q =>
    cases hn with
    | some h =>
    dsimp only
    rcases result_sim h with ⟨r1, r2⟩ | ⟨a, b, r1, r2, hab⟩
    · rw [r1, r2]
      obtain ⟨ρ', l, hs, hm', ho, hf⟩ := step_sim h hm
      exact ⟨ρ', l, set l _ _ _ _ ⟨hg.mono l, .some hs⟩, hm', ho, hf⟩
    · rw [r1, r2]
      exact ⟨ρ, stay, set stay _ _ _ _ ⟨hg.snoc hab, .none⟩, hm, Only.refl _ _, Fresh.refl _ _⟩

variable {γ : Type} [DecidableEq γ]

/-- The team `g` alone, in an empty memory. -/
def teamAlone (n : Nat) (programs : ι → Program' ι) (team : ι → γ) (g : γ) (turns : List ι) : Clients ι :=
  (Clients.fresh ⟨[], []⟩).run n programs (turns.filter fun i => team i = g)

/-- Each team is where it would be alone, in a part of the memory of its own. -/
structure Teams (n : Nat) (programs : ι → Program' ι) (team : ι → γ) (old : State) (turns : List ι) (w : Clients ι) (ρ : γ → Ren) : Prop where
  sim : ∀ g j, team j = g → ClientSim (ρ g) ((teamAlone n programs team g turns).clients j) (w.clients j)
  mem : ∀ g, Mem (ρ g) (teamAlone n programs team g turns).memory w.memory
  obj : ∀ g h, g ≠ h → ∀ s ∈ (ρ g).obj, s ∉ (ρ h).obj
  io : ∀ g h, g ≠ h → ∀ s ∈ (ρ g).io, s ∉ (ρ h).io
  newObj : ∀ g, ∀ s ∈ (ρ g).obj, old.heap.length ≤ s
  newIo : ∀ g, ∀ s ∈ (ρ g).io, old.streams.length ≤ s
  kept : Only ⟨[], []⟩ old w.memory

theorem teamAlone_snoc (n : Nat) (programs : ι → Program' ι) (team : ι → γ) (g : γ) (turns : List ι) (i : ι) :
    teamAlone n programs team g (turns ++ [i]) =
      if team i = g then (teamAlone n programs team g turns).step n programs i else teamAlone n programs team g turns := by
  unfold teamAlone
  rw [List.filter_append, Clients.run, List.foldl_append]
  by_cases h : team i = g
  · rw [if_pos h]
    simp only [List.filter_cons, h, decide_true, if_true, List.filter_nil]
    rfl
  · rw [if_neg h]
    simp only [List.filter_cons, h, decide_false, List.filter_nil]
    rfl

theorem other_step (n : Nat) (programs : ι → Program' ι) (w : Clients ι) {i j : ι} (h : j ≠ i) : (w.step n programs i).clients j = w.clients j := by
  unfold Clients.step
  split
  · split
    · rfl
    · unfold Clients.set; dsimp only; rw [if_neg h]
  · split <;> (unfold Clients.set; dsimp only; rw [if_neg h])

theorem Teams.step {n : Nat} {programs : ι → Program' ι} {team : ι → γ} {old : State} {turns : List ι} {w : Clients ι} {ρ : γ → Ren}
    (h : Teams n programs team old turns w ρ) (i : ι) (borrows : ∀ s j k, programs i s = some (.borrow j k) → team j = team i) :
    ∃ ρ', Teams n programs team old (turns ++ [i]) (w.step n programs i) ρ' := by
  obtain ⟨ρ', _, hs, hm, ho, hf⟩ := team_step n (fun j => team j = team i) (h.sim (team i)) (h.mem (team i)) i rfl borrows
  refine ⟨fun g => if g = team i then ρ' else ρ g, ⟨fun g j e => ?_, fun g => ?_, fun j k hjk s hs' => ?_, fun j k hjk s hs' => ?_, fun j s hs' => ?_,
    fun j s hs' => ?_, ?_⟩⟩
  · rw [teamAlone_snoc]
    by_cases hg : g = team i
    · subst hg
      rw [if_pos rfl, if_pos rfl]
      exact hs j e
    · rw [if_neg hg, if_neg (Ne.symm hg), other_step n programs w (by rintro rfl; exact hg e.symm)]
      exact h.sim g j e
  · rw [teamAlone_snoc]
    by_cases hg : g = team i
    · subst hg
      rw [if_pos rfl, if_pos rfl]
      exact hm
    · rw [if_neg hg, if_neg (Ne.symm hg)]
      exact (h.mem g).keep ho (h.obj g (team i) hg) (h.io g (team i) hg)
  · show s ∉ (if k = team i then ρ' else ρ k).obj
    change s ∈ (if j = team i then ρ' else ρ j).obj at hs'
    by_cases ej : j = team i
    · subst ej
      rw [if_pos rfl] at hs'
      rw [if_neg (fun e => hjk e.symm)]
      rcases hf.obj s hs' with h' | h'
      · exact h.obj _ k hjk s h'
      · intro hk
        have := (h.mem k).bound.1 s hk
        omega
    · rw [if_neg ej] at hs'
      by_cases ek : k = team i
      · subst ek
        rw [if_pos rfl]
        intro hk
        rcases hf.obj s hk with h' | h'
        · exact h.obj j _ hjk s hs' h'
        · have := (h.mem j).bound.1 s hs'
          omega
      · rw [if_neg ek]
        exact h.obj j k hjk s hs'
  · show s ∉ (if k = team i then ρ' else ρ k).io
    change s ∈ (if j = team i then ρ' else ρ j).io at hs'
    by_cases ej : j = team i
    · subst ej
      rw [if_pos rfl] at hs'
      rw [if_neg (fun e => hjk e.symm)]
      rcases hf.io s hs' with h' | h'
      · exact h.io _ k hjk s h'
      · intro hk
        have := (h.mem k).bound.2 s hk
        omega
    · rw [if_neg ej] at hs'
      by_cases ek : k = team i
      · subst ek
        rw [if_pos rfl]
        intro hk
        rcases hf.io s hk with h' | h'
        · exact h.io j _ hjk s hs' h'
        · have := (h.mem j).bound.2 s hs'
          omega
      · rw [if_neg ek]
        exact h.io j k hjk s hs'
  · change s ∈ (if j = team i then ρ' else ρ j).obj at hs'
    split at hs'
    · rcases hf.obj s hs' with h' | h'
      · exact h.newObj _ s h'
      · exact Nat.le_trans h.kept.heap h'
    · exact h.newObj j s hs'
  · change s ∈ (if j = team i then ρ' else ρ j).io at hs'
    split at hs'
    · rcases hf.io s hs' with h' | h'
      · exact h.newIo _ s h'
      · exact Nat.le_trans h.kept.streams h'
    · exact h.newIo j s hs'
  · refine ⟨Nat.le_trans h.kept.heap ho.heap, fun s hs' _ => ?_, Nat.le_trans h.kept.streams ho.streams, fun s hs' _ => ?_⟩
    · refine (ho.objs s (Nat.lt_of_lt_of_le hs' h.kept.heap) fun hm => ?_).trans (h.kept.objs s hs' (by simp))
      have := h.newObj _ s hm
      omega
    · refine (ho.ios s (Nat.lt_of_lt_of_le hs' h.kept.streams) fun hm => ?_).trans (h.kept.ios s hs' (by simp))
      have := h.newIo _ s hm
      omega

theorem Teams.run {n : Nat} {programs : ι → Program' ι} {team : ι → γ} {old : State}
    (borrows : ∀ i s j k, programs i s = some (.borrow j k) → team j = team i) (more : List ι) :
    ∀ {turns : List ι} {w : Clients ι} {ρ : γ → Ren}, Teams n programs team old turns w ρ → ∃ ρ', Teams n programs team old (turns ++ more) (w.run n programs more) ρ' := by
  induction more with
  | nil => intro turns w ρ h; exact ⟨ρ, by rw [List.append_nil]; exact h⟩
  | cons i more ih =>
    intro turns w ρ h
    obtain ⟨ρ', h'⟩ := h.step i (borrows i)
    obtain ⟨ρ'', h''⟩ := ih h'
    exact ⟨ρ'', by rw [List.append_cons]; exact h''⟩

theorem teams (n : Nat) (programs : ι → Program' ι) (team : ι → γ) (borrows : ∀ i s j k, programs i s = some (.borrow j k) → team j = team i)
    (old : State) (turns : List ι) : ∃ ρ, Teams n programs team old turns ((Clients.fresh old).run n programs turns) ρ := by
  have := Teams.run (n := n) (old := old) borrows turns (turns := []) (w := Clients.fresh old) (ρ := fun _ => ⟨[], []⟩) ⟨fun g j _ => ⟨.nil, .none⟩,
    fun g => ⟨rfl, fun r s hr => by simp at hr, rfl, fun r s hr => by simp at hr, List.nodup_nil, List.nodup_nil⟩, fun _ _ _ s hs => by simp at hs,
    fun _ _ _ s hs => by simp at hs, fun _ s hs => by simp at hs, fun _ s hs => by simp at hs, Only.refl _ _⟩
  simpa using this

end Dmr.Py.Threads
