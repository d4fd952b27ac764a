import Verif.Py.Shared
import Verif.Py.ThreadsErase
import Verif.Props.SourceHeader
/-
C70: threads may use the properties of the same objects at the same time, if these properties are calculated from other attributes, or
have been remembered before; and they may not, otherwise.

The steps are those of Verif/Py/Threads: looking at an object, assigning an attribute, using a stream.
-/

set_option autoImplicit false

namespace Dmr.Py

open Threads (R)

/-- The properties that use the stream: class, name, and the attribute in which the value is remembered. -/
def streamed : List (String × String × String) :=
  [("Hytera.LocationProtocol", "opcode", "_m_opcode"),
   ("Hytera.RealTimeTransportProtocol", "len_padding_if_exists", "_m_len_padding_if_exists"),
   ("Hytera.RealTimeTransportProtocol", "len_padding", "_m_len_padding"),
   ("Hytera.TelemetryProtocol", "specific_service", "_m_specific_service"),
   ("Etsi.DmrDataHeader", "data", "_m_data"),
   ("Homebrew.Homebrew2015", "fifth_letter", "_m_fifth_letter"),
   ("Homebrew.Mmdvm2020", "fifth_letter", "_m_fifth_letter")]

/-- `getattr(x, p)`, for the object `x` with the number `r`, does not use the stream: it is no property that does, or its value has been
remembered. (The attributes in which properties remember their values are not to be used directly.) -/
def Settled (σ : State) (r : Nat) (p : String) : Prop :=
  p ∉ memos ∧ ∀ o m, σ.heap[r]? = some o → (o.cls, p, m) ∈ streamed → (o.attrs.lookup m).isSome

/-- A thread that does one `getattr` after another: what it has got, the one that it is doing, and those that are left, by the number of
the object and the name of the property. An exception is what it has got too. -/
structure User where
  got : List (Except PyErr Val)
  now : Option (R Val)
  left : List (Nat × String)

/-- What is to be done, before anything has been done. -/
def User.start (todo : List (Nat × String)) : User := ⟨[], none, todo⟩

/-- It takes a step: it begins the next `getattr`, or goes on with it, or notes what it has got. -/
def User.step (n : Nat) (u : User) (σ : State) : User × State :=
  match u.now with
  | none =>
    match u.left with
    | [] => (u, σ)
    | (r, p) :: left => (⟨u.got, some (Threads.getattr (Threads.calls library n) (.obj r) p), left⟩, σ)
  | some q =>
    match q.result with
    | some a => (⟨u.got ++ [a], none, u.left⟩, σ)
    | none => (⟨u.got, some (q.step σ).1, u.left⟩, (q.step σ).2)

/-- Threads and the memory that they share. -/
structure Users (ι : Type) where
  users : ι → User
  memory : State

variable {ι : Type} [DecidableEq ι]

/-- The thread `i` takes a step. -/
def Users.step (n : Nat) (w : Users ι) (i : ι) : Users ι :=
  ⟨fun j => if j = i then ((w.users i).step n w.memory).1 else w.users j, ((w.users i).step n w.memory).2⟩

/-- The threads take steps in the given order. -/
def Users.run (n : Nat) (w : Users ι) (turns : List ι) : Users ι := turns.foldl (Users.step n) w

/-- What `getattr(x, p)` gives if nobody else is there, for the object `x` with the number `r`. -/
def alone (n : Nat) (σ : State) (a : Nat × String) : Except PyErr Val := (access library n a.1 a.2 σ).result

/-- Between `σ` and `τ`, nothing has changed, but that some properties have remembered their values. -/
structure Remembers (σ τ : State) : Prop where
  objects : ∀ (r : Nat) (o : Obj), σ.heap[r]? = some o → ∃ o' : Obj, τ.heap[r]? = some o' ∧ o'.cls = o.cls ∧
    (∀ x, x ∉ memos → o'.attrs.lookup x = o.attrs.lookup x) ∧ ∀ x v, o.attrs.lookup x = some v → o'.attrs.lookup x = some v
  nothing_new : ∀ r : Nat, σ.heap[r]? = none → τ.heap[r]? = none
  streams : τ.streams = σ.streams

namespace Threads

theorem library_shareable : library.shareable streamed 18 = true := by decide +kernel

/-- The library. -/
def sharing (n : Nat) (σ : State) : Share := share library library_shareable (n - 1) σ

theorem run_alone (n : Nat) (σ : State) (r : Nat) (p : String) : ((getattr (calls library n) (.obj r) p).run σ).result = alone n σ (r, p) := by
  have d := getattr_same (calls_same library n) (.obj r) p σ
  unfold alone access
  dsimp only
  cases h1 : (getattr (calls library n) (.obj r) p).run σ <;> cases h2 : (Py.getattr (Py.calls library n) (.obj r) p).run σ <;> rw [h1, h2] at d
  · rw [d.1]; rfl
  · exact d.elim
  · exact d.elim
  · rw [d.1]; rfl

theorem alone_tells (n : Nat) (σ : State) (r : Nat) (p : String) (h : Settled σ r p) :
    Tells (sharing n σ) 23 (getattr (calls library n) (.obj r) p) (alone n σ (r, p)) := by
  obtain ⟨a, ha⟩ := tells_access library library_shareable n σ r p h.1 h.2
  have e := (ha (fun _ _ => False)).run (sharing n σ).start (none_known _)
  have : alone n σ (r, p) = a := (run_alone n σ r p).symm.trans e
  rw [this]
  exact ha

/-- How far a thread has come, and how many steps it still takes at most. -/
inductive Going (n : Nat) (σ : State) (todo : List (Nat × String)) (K : Known) : User → Nat → Prop
  | idle (old left : List (Nat × String)) (h : old ++ left = todo) : Going n σ todo K ⟨old.map (alone n σ), none, left⟩ (25 * left.length)
  | busy (old left : List (Nat × String)) (a : Nat × String) (h : old ++ a :: left = todo) (q : R Val) (b : Nat) (hb : b ≤ 23)
      (hq : Steady (sharing n σ) (· = alone n σ a) K b q) : Going n σ todo K ⟨old.map (alone n σ), some q, left⟩ (25 * left.length + b + 1)

theorem going_step {n : Nat} {σ : State} {todo : List (Nat × String)} {K : Known} {u : User} {m : Nat} (h : Going n σ todo K u m)
    (safe : ∀ a ∈ todo, Settled σ a.1 a.2) {τ : State} (hi : (sharing n σ).Inv τ) (hk : K.true τ) :
    (sharing n σ).Inv (u.step n τ).2 ∧ (∀ K' : Known, K'.true τ → K'.true (u.step n τ).2) ∧
      ∃ (K' : Known) (m' : Nat), K'.true (u.step n τ).2 ∧ m' ≤ m - 1 ∧ Going n σ todo K' (u.step n τ).1 m' := by
  cases h with
  | idle old left h =>
    cases left with
    | nil => exact ⟨hi, fun _ h => h, K, _, hk, by simp, .idle old [] h⟩
    | cons a left =>
      refine ⟨hi, fun _ h => h, K, 25 * left.length + 23 + 1, hk, by rw [List.length_cons]; omega, ?_⟩
      exact .busy old left a h _ 23 (Nat.le_refl _) (alone_tells n σ a.1 a.2 (safe a (by rw [← h]; simp)) K)
  | busy old left a h q b hb hq =>
    cases hr : q.result with
    | some c =>
      have e : User.step n ⟨old.map (alone n σ), some q, left⟩ τ = (⟨old.map (alone n σ) ++ [c], none, left⟩, τ) := by
        unfold User.step; dsimp only; rw [hr]
      rw [e]
      refine ⟨hi, fun _ h => h, K, 25 * left.length, hk, by omega, ?_⟩
      rw [hq.result c hr, show old.map (alone n σ) ++ [alone n σ a] = (old ++ [a]).map (alone n σ) by simp]
      exact .idle (old ++ [a]) left (by rw [← h]; simp)
    | none =>
      have e : User.step n ⟨old.map (alone n σ), some q, left⟩ τ = (⟨old.map (alone n σ), some (q.step τ).1, left⟩, (q.step τ).2) := by
        unfold User.step; dsimp only; rw [hr]
      rw [e]
      obtain ⟨h1, h2, K', h3, h4⟩ := hq.step hi hk
      refine ⟨h1, h2, K', 25 * left.length + (b - 1) + 1, h3, ?_, .busy old left a h _ (b - 1) (by omega) h4⟩
      cases b with
      | zero =>
        obtain ⟨c, hc⟩ := hq.zero
        rw [hr] at hc; cases hc
      | succ b => omega

theorem going_on (n : Nat) (σ : State) (todo : ι → List (Nat × String)) (safe : ∀ i, ∀ a ∈ todo i, Settled σ a.1 a.2) :
    ∀ (turns : List ι) (w : Users ι) (M : ι → Nat), (sharing n σ).Inv w.memory →
      (∀ i, ∃ (K : Known) (m : Nat), K.true w.memory ∧ m ≤ M i ∧ Going n σ (todo i) K (w.users i) m) →
      (sharing n σ).Inv (Users.run n w turns).memory ∧ ∀ i, ∃ (K : Known) (m : Nat), K.true (Users.run n w turns).memory ∧
        m ≤ M i - turns.count i ∧ Going n σ (todo i) K ((Users.run n w turns).users i) m
  | [], w, M, hi, hg => ⟨hi, fun i => hg i⟩
  | i :: turns, w, M, hi, hg => by
    obtain ⟨K, m, hk, hm, hgo⟩ := hg i
    obtain ⟨h1, h2, K', m', h3, h4, h5⟩ := going_step hgo (safe i) hi hk
    obtain ⟨r1, r2⟩ := going_on n σ todo safe turns (w.step n i) (fun j => if j = i then M i - 1 else M j) h1 (fun j => by
      by_cases hj : j = i
      · subst hj
        exact ⟨K', m', h3, by rw [if_pos rfl]; omega, by dsimp only [Users.step]; rw [if_pos rfl]; exact h5⟩
      · obtain ⟨K, m, hk, hm, hgo⟩ := hg j
        exact ⟨K, m, h2 K hk, by rw [if_neg hj]; exact hm, by dsimp only [Users.step]; rw [if_neg hj]; exact hgo⟩)
    refine ⟨r1, fun j => ?_⟩
    obtain ⟨K, m, hk, hm, hgo⟩ := r2 j
    refine ⟨K, m, hk, ?_, hgo⟩
    by_cases hj : j = i
    · subst hj
      rw [if_pos rfl] at hm
      rw [List.count_cons_self]
      omega
    · rw [if_neg hj] at hm
      rw [List.count_cons_of_ne (Ne.symm hj)]
      exact hm

/-- After the turns. -/
theorem going_run (n : Nat) (σ : State) (todo : ι → List (Nat × String)) (safe : ∀ i, ∀ a ∈ todo i, Settled σ a.1 a.2) (turns : List ι) :
    (sharing n σ).Inv (Users.run n ⟨fun i => .start (todo i), σ⟩ turns).memory ∧
      ∀ i, ∃ (K : Known) (m : Nat), K.true (Users.run n ⟨fun i => .start (todo i), σ⟩ turns).memory ∧ m ≤ 25 * (todo i).length - turns.count i ∧
        Going n σ (todo i) K ((Users.run n ⟨fun i => .start (todo i), σ⟩ turns).users i) m :=
  going_on n σ todo safe turns _ (fun i => 25 * (todo i).length) (sharing n σ).start fun i =>
    ⟨fun _ _ => False, _, none_known _, Nat.le_refl _, .idle [] (todo i) rfl⟩

end Threads

/-- **C70.** Threads use attributes and properties of the same objects. Whatever these objects are, however many threads there are, and in
whatever order they take their steps: each thread gets what it would get if it were alone. Meanwhile nothing changes but that properties
remember their values. -/
theorem C70_shared (n : Nat) (σ : State) (todo : ι → List (Nat × String)) (safe : ∀ i, ∀ a ∈ todo i, Settled σ a.1 a.2) (turns : List ι) :
    (∀ i, ((Users.run n ⟨fun i => .start (todo i), σ⟩ turns).users i).got <+: (todo i).map (alone n σ)) ∧
      Remembers σ (Users.run n ⟨fun i => .start (todo i), σ⟩ turns).memory := by
  obtain ⟨hi, hg⟩ := Threads.going_run n σ todo safe turns
  refine ⟨fun i => ?_, ⟨fun r o ho => ?_, hi.missing, hi.streams⟩⟩
  · obtain ⟨K, m, -, -, h⟩ := hg i
    generalize (Users.run n ⟨fun i => .start (todo i), σ⟩ turns).users i = u at h
    cases h with
    | idle old left h => rw [← h, List.map_append]; exact List.prefix_append _ _
    | busy old left a h => rw [← h, List.map_append]; exact List.prefix_append _ _
  · obtain ⟨o', h1, h2⟩ := hi.objects r o ho
    refine ⟨o', h1, h2.cls, fun x hx => h2.ordinary hx, fun x v hv => ?_⟩
    rcases h2.attrs x with h | ⟨h, -⟩
    · rw [h, hv]
    · rw [hv] at h; cases h

/-- **C70.** No thread has to wait for another one: after 25 steps for each `getattr`, it has got all of them. -/
theorem C70_ends (n : Nat) (σ : State) (todo : ι → List (Nat × String)) (safe : ∀ i, ∀ a ∈ todo i, Settled σ a.1 a.2) (turns : List ι)
    (i : ι) (enough : 25 * (todo i).length ≤ turns.count i) :
    ((Users.run n ⟨fun i => .start (todo i), σ⟩ turns).users i).got = (todo i).map (alone n σ) := by
  obtain ⟨-, hg⟩ := Threads.going_run n σ todo safe turns
  obtain ⟨K, m, -, hm, h⟩ := hg i
  have : m = 0 := by omega
  generalize (Users.run n ⟨fun i => .start (todo i), σ⟩ turns).users i = u at h
  cases h with
  | idle old left h =>
    have : left = [] := List.length_eq_zero_iff.1 (by omega)
    subst this
    rw [← h, List.append_nil]
  | busy => omega

/-- **C70.** And what they have remembered is right: afterwards each property gives what it would have given before. -/
theorem C70_after (n : Nat) (σ : State) (todo : ι → List (Nat × String)) (safe : ∀ i, ∀ a ∈ todo i, Settled σ a.1 a.2) (turns : List ι) (r : Nat) (p : String)
    (settled : Settled σ r p) : alone n (Users.run n ⟨fun i => .start (todo i), σ⟩ turns).memory (r, p) = alone n σ (r, p) := by
  obtain ⟨hi, -⟩ := Threads.going_run n σ todo safe turns
  rw [← Threads.run_alone]
  exact (Threads.alone_tells n σ r p settled (fun _ _ => False)).run hi (Threads.none_known _)

/-! ### Packets -/

/-- The properties of decoded packets that may use the stream when they are asked for the first time. -/
def notYet : List String := ["opcode", "len_padding_if_exists", "data", "fifth_letter"]

theorem value_plain (name : String) (s : LazySpec) (known : (name, s) ∈ propertyClasses) (x : s.cls.Attrs) (b : Bytes) (p : String) (hp : p ≠ "data")
    (v : PyVal) (h : s.value x b p = .ok v) : Wire.Plain v := by
  have hs := (propertyClasses_known _ known).1
  revert s
  suffices h : ∀ s ∈ lazySpecs, ∀ (x : s.cls.Attrs) (v : PyVal), s.value x b p = .ok v → Wire.Plain v from fun s _ x h' hs => h s hs x v h'
  simp only [lazySpecs, List.forall_mem_cons]
  have pint : ∀ i, Wire.Plain (.int i) := fun i => ⟨nofun, nofun⟩
  have pstr : ∀ i, Wire.Plain (.str i) := fun i => ⟨nofun, nofun⟩
  have pbool : ∀ i, Wire.Plain (.bool i) := fun i => ⟨nofun, nofun⟩
  have pnone : Wire.Plain .none := ⟨nofun, nofun⟩
  have penum : ∀ (E : Type) [PyEnum E] (c : String) (e : EnumVal E), Wire.Plain (EnumVal.toPy c e) := by
    intro E _ c e
    cases e
    · exact ⟨nofun, nofun⟩
    · exact ⟨nofun, nofun⟩
  refine ⟨?_, ?_, ?_, ?_, ?_, ?_, ?_, ?_, ?_, ?_, ?_, ?_, ?_, ?_, ?_, ?_, ?_, by simp⟩
  all_goals
    intro x v h
    simp only [radioIpValue, radioIdValue, gpsdataValue, ipscValue, rtpValue, telemetryValue, textMessageValue, locationValue, sequenceNumberValue,
      ackSequenceNumberValue, pduTypeValue, fifthLetterValue, appendedBlocksValue, dataHeaderValue, if_neg hp] at h
    repeat' split at h
    all_goals first
      | cases h; done
      | (cases h; first | exact pint _ | exact pstr _ | exact pbool _ | exact pnone | exact penum _ _ _)

theorem caches_found {v : PyVal} {cls : String} {vs : List (String × PyVal)} (m : String) (hm : "_m_".toList.isPrefixOf m.toList = true)
    (hv : v = .struct cls vs) (h : (vs.lookup m).isSome) : (v.caches.lookup m).isSome := by
  subst hv
  show ((vs.filter _).lookup m).isSome
  rw [lookup_filter _ _ (by rintro y v rfl; exact hm)]
  exact h

theorem getters_known : ∀ s ∈ lazySpecs, ∀ p ∈ s.cls.getters.map Prod.fst, p ∉ memos ∧
    (p = "specific_service" → ∀ a : s.cls.Attrs, ((s.cls.view a).caches.lookup "_m_specific_service").isSome) ∧
    (p = "len_padding" → ∀ a : s.cls.Attrs, ((s.cls.view a).caches.lookup "_m_len_padding").isSome) := by
  have h : ∀ s ∈ lazySpecs, ∀ p ∈ s.cls.getters.map Prod.fst, p ∉ memos := by decide +kernel
  have h1 : ∀ s ∈ lazySpecs, "specific_service" ∈ s.cls.getters.map Prod.fst → ∀ a : s.cls.Attrs, ((s.cls.view a).caches.lookup "_m_specific_service").isSome := by
    simp only [lazySpecs, List.forall_mem_cons]
    refine ⟨?_, ?_, ?_, ?_, ?_, ?_, ?_, ?_, ?_, ?_, ?_, ?_, ?_, ?_, ?_, ?_, ?_, by simp⟩
    all_goals first
      | (intro h; exact absurd h (by decide +kernel))
      | (intro _ a
         refine caches_found "_m_specific_service" (by decide) rfl ?_
         look_up
         rfl)
  have h2 : ∀ s ∈ lazySpecs, "len_padding" ∈ s.cls.getters.map Prod.fst → ∀ a : s.cls.Attrs, ((s.cls.view a).caches.lookup "_m_len_padding").isSome := by
    simp only [lazySpecs, List.forall_mem_cons]
    refine ⟨?_, ?_, ?_, ?_, ?_, ?_, ?_, ?_, ?_, ?_, ?_, ?_, ?_, ?_, ?_, ?_, ?_, by simp⟩
    all_goals first
      | (intro h; exact absurd h (by decide +kernel))
      | (intro _ a
         refine caches_found "_m_len_padding" (by decide) rfl ?_
         look_up
         rfl)
  exact fun s hs p hp => ⟨h s hs p hp, fun e a => h1 s hs (e ▸ hp) a, fun e a => h2 s hs (e ▸ hp) a⟩

theorem settled_decoded (name : String) (s : LazySpec) (known : (name, s) ∈ propertyClasses) (n : Nat) (hn : 13 ≤ n) (b : Bytes) (x : s.cls.Attrs) (h : Dmr.fromBytes s.cls.read b = .ok x)
    (σ : State) (hσ : Py.fromBytes library n name b = .ok (.obj 0) σ) (p : String) (hp : p ∈ s.cls.getters.map Prod.fst) (hy : p ∉ notYet) :
    Settled σ 0 p := by
  obtain ⟨hs, hname⟩ := propertyClasses_known _ known
  obtain ⟨make, ht⟩ := Constructs.agrees (table_claims _ (objectDecoders_in_table _ hname))
  have ht := ht b
  dsimp only at ht
  have hx : ∃ t, s.cls.read (Stream.new b) = (.ok x, t) := by
    rcases hx : s.cls.read (Stream.new b) with ⟨e | y, t⟩
    · unfold Dmr.fromBytes at h; rw [hx] at h; cases h
    · unfold Dmr.fromBytes at h; rw [hx] at h; cases h; exact ⟨t, rfl⟩
  obtain ⟨t, hx⟩ := hx
  rw [hx] at ht
  obtain ⟨h1, h2, nav, -⟩ := ht
  generalize make x = heap at h1 h2 nav
  rw [show Py.fromBytes library n name b = _ from h1 n hn] at hσ
  cases hσ
  have hh := decoded_holds (s := t) (lazySpecs_noRaw _ hs) nav h2
  obtain ⟨cls, vs, attrs, hv, hat, -, -, hl⟩ := hh.object
  obtain ⟨g1, g2, g3⟩ := getters_known s hs p hp
  have like : ∀ m, m ∉ links → m ∈ memos → ((s.cls.view x).caches.lookup m).isSome → (attrs.lookup m).isSome := by
    intro m hm hm' hc
    have := hl m hm
    rw [if_pos hm'] at this
    change Like heap (attrs.lookup m) ((s.cls.view x).caches.lookup m) at this
    cases ha : attrs.lookup m with
    | some v => rfl
    | none =>
      obtain ⟨w, hw⟩ := Option.isSome_iff_exists.1 hc
      rw [ha, hw] at this
      exact this.elim
  refine ⟨g1, fun o m ho hm => ?_⟩
  rw [hat] at ho
  cases ho
  simp only [notYet, List.mem_cons, List.not_mem_nil, or_false, not_or] at hy
  simp only [streamed, List.mem_cons, Prod.mk.injEq, List.not_mem_nil, or_false] at hm
  rcases hm with ⟨-, h, -⟩ | ⟨-, h, -⟩ | ⟨-, h, rfl⟩ | ⟨-, h, rfl⟩ | ⟨-, h, -⟩ | ⟨-, h, -⟩ | ⟨-, h, -⟩
  · exact absurd h hy.1
  · exact absurd h hy.2.1
  · exact like _ (by decide) (by decide) (g3 h x)
  · exact like _ (by decide) (by decide) (g2 h x)
  · exact absurd h hy.2.2.1
  · exact absurd h hy.2.2.2
  · exact absurd h hy.2.2.2

/-- **C70.** From the bytes to the values: a packet is decoded, and then any number of threads use its properties at the same time. Each
gets what the properties are specified to be. -/
theorem C70_packet (name : String) (s : LazySpec) (known : (name, s) ∈ propertyClasses) (n : Nat) (hn : 13 ≤ n) (b : Bytes) (x : s.cls.Attrs) (h : Dmr.fromBytes s.cls.read b = .ok x)
    (todo : ι → List String) (valid : ∀ i, ∀ p ∈ todo i, p ∈ s.cls.getters.map Prod.fst ∧ p ∉ notYet) :
    ∃ σ, Py.fromBytes library n name b = .ok (.obj 0) σ ∧ Shows σ.heap (.obj 0) (s.cls.view x) ∧
      ∀ (turns : List ι) (i : ι), 25 * (todo i).length ≤ turns.count i →
        ((Users.run n ⟨fun i => .start ((todo i).map fun p => (0, p)), σ⟩ turns).users i).got = (todo i).map fun p => (s.value x b p).map Val.pv := by
  obtain ⟨σ, -, -, h1, h2, -⟩ := C60_packet name s known n hn b x h [] (by simp)
  refine ⟨σ, h1, h2, fun turns i enough => ?_⟩
  rw [C70_ends n σ _ (fun i a ha => ?_) turns i (by simpa using enough), List.map_map]
  · refine List.map_congr_left fun p hp => ?_
    obtain ⟨hp1, hp2⟩ := valid i p hp
    obtain ⟨σ', h1', h3⟩ := Wire.access_decoded known hp1 hn h
    rw [h1] at h1'
    injection h1' with _ h1'
    subst h1'
    show alone n σ (0, p) = _
    unfold alone
    rcases hv : s.value x b p with e | v
    · rw [hv] at h3
      obtain ⟨τ, h3⟩ := h3
      rw [h3]; rfl
    · rw [hv] at h3
      obtain ⟨w, τ, h3, h4⟩ := h3
      rw [h3]
      have := value_plain name s known x b p (by rintro rfl; exact hp2 (by decide)) v hv
      cases h4 with
      | plain => rfl
      | list => exact absurd rfl (this.2 _)
      | object => exact absurd rfl (this.1 _ _)
  · obtain ⟨p, hp, rfl⟩ := List.mem_map.1 ha
    exact settled_decoded name s known n hn b x h σ h1 p (valid i p hp).1 (valid i p hp).2

/-- The address 10.0.0.80, and two threads: the one asks for the number and the text, the other one for the text and the number. However they
take turns, if they take fifty or more each, both have got the right answers. -/
example : ∃ σ, Py.fromBytes library 13 "Hytera.RadioIp" [10, 0, 0, 80] = .ok (.obj 0) σ ∧
    ∀ turns : List Bool, 50 ≤ turns.count false → 50 ≤ turns.count true →
      let w := Users.run 13 ⟨fun i => .start (if i then [(0, "radio_id"), (0, "radio_ip")] else [(0, "radio_ip"), (0, "radio_id")]), σ⟩ turns
      (w.users true).got = [.ok (.pv (.int 80)), .ok (.pv (.str "10.0.0.80".toList))] ∧
        (w.users false).got = [.ok (.pv (.str "10.0.0.80".toList)), .ok (.pv (.int 80))] := by
  obtain ⟨σ, h1, -, h2⟩ := C70_packet (ι := Bool) "Hytera.RadioIp" ⟨radioIpClass, radioIpValue⟩ (List.mem_of_getElem? (i := 0) rfl) 13 (Nat.le_refl _)
    [10, 0, 0, 80] ⟨10, 0, 0, 80⟩ (by decide +kernel) (fun i => if i then ["radio_id", "radio_ip"] else ["radio_ip", "radio_id"]) (by
      intro i p hp
      have : p = "radio_id" ∨ p = "radio_ip" := by cases i <;> simp at hp <;> tauto
      rcases this with rfl | rfl <;> decide +kernel)
  refine ⟨σ, h1, fun turns hf ht => ⟨?_, ?_⟩⟩
  · exact (congrArg User.got (by congr; funext i; cases i <;> rfl)).trans (h2 turns true ht)
  · exact (congrArg User.got (by congr; funext i; cases i <;> rfl)).trans (h2 turns false hf)

/-! ### Otherwise -/

/-- "MSTNAK" and four bytes: a master refuses a repeater. -/
def aRefusal : Bytes := [77, 83, 84, 78, 65, 75, 0, 0, 0, 1]

/-- The memory afterwards. -/
def Out.memory {α : Type} : Out α → State
  | .ok _ σ => σ
  | .raise _ σ => σ

theorem Out.returns {α : Type} (o : Out α) (h : o.result.toBool = true) : ∃ v, o = .ok v o.memory := by
  cases o with
  | ok v σ => exact ⟨v, rfl⟩
  | raise => cases h

/-- What decoding it leaves in the memory. -/
def refused : State := (Py.fromBytes library 13 "Homebrew.Homebrew2015" aRefusal).memory

/-- The texts among the results. -/
def texts : List (Except PyErr Val) → List (Option PyStr)
  | [] => []
  | .ok (.pv (.str s)) :: l => some s :: texts l
  | _ :: l => none :: texts l

theorem texts_single {l : List (Except PyErr Val)} {s : PyStr} (h : texts l = [some s]) : l = [.ok (.pv (.str s))] := by
  match l with
  | [] => cases h
  | a :: l =>
    unfold texts at h
    split at h
    · cases h
    · next heq =>
      cases heq
      injection h with h1 h2
      cases h1
      match l with
      | [] => rfl
      | b :: l =>
        unfold texts at h2
        split at h2
        all_goals first
          | cases h2; done
          | (rename_i heq; cases heq)
    · injection h with h1; cases h1

theorem texts_one {a : Except PyErr Val} {s : PyStr} (h : texts [a] = [some s]) : a = .ok (.pv (.str s)) := by
  have := texts_single h
  injection this

/-- Both threads ask for the same property of the same packet. -/
def bothAsk : Bool → List (Nat × String) := fun _ => [(0, "fifth_letter")]

/-- The first thread saves its position, then the second one does; the first one seeks, reads and goes back; the second one reads. -/
def unlucky : List Bool := List.replicate 8 false ++ List.replicate 8 true ++ List.replicate 3 false ++ List.replicate 17 true ++ List.replicate 14 false

/-- **C70.** For the other properties this is not so. A packet has just been decoded, and its fifth letter is A; but if two threads ask for
`fifth_letter` at the same time, both can get the letter K, and the packet keeps it. -/
theorem C70_race : (∃ v, Py.fromBytes library 13 "Homebrew.Homebrew2015" aRefusal = .ok v refused) ∧
    alone 13 refused (0, "fifth_letter") = .ok (.pv (.str ['A'])) ∧
    (∀ i, ((Users.run 13 ⟨fun i => .start (bothAsk i), refused⟩ unlucky).users i).got = [.ok (.pv (.str ['K']))]) ∧
    alone 13 (Users.run 13 ⟨fun i => .start (bothAsk i), refused⟩ unlucky).memory (0, "fifth_letter") = .ok (.pv (.str ['K'])) := by
  refine ⟨?_, ?_, fun i => ?_, ?_⟩
  · exact Out.returns _ (by decide +kernel)
  · exact texts_one (by decide +kernel)
  · cases i
    · exact texts_single (by decide +kernel)
    · exact texts_single (by decide +kernel)
  · exact texts_one (by decide +kernel)

end Dmr.Py
