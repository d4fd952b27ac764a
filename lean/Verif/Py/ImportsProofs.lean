import Verif.Py.Imports
/-
Whatever is imported in whatever order: if every module of a program comes after those that it imports, and they have the names that it takes from
them, then every import succeeds, and in the end each module has the names that its text says.
-/

set_option autoImplicit false

namespace Dmr.Py.Imports

variable (E : Env)

/-- The binding that a statement of module `m` makes. -/
def binding (m : Name) : Top → Option (Name × Ref)
  | .import_ n => some (n, .external n [])
  | .from_ p x => some (x, if (E.external.lookup p).isSome then .external p [x] else match E.sub p x with | some k => .module k.name | none => .made p x)
  | .check => none
  | .define x _ _ => some (x, .made m x)

/-- A later binding of a name hides an earlier one. -/
def add (m : Name) (bs : List (Name × Ref)) (s : Top) : List (Name × Ref) := (binding E m s).toList ++ bs

/-- The names of a module, when all its statements have been run. -/
def Module.names (d : Module) : List (Name × Ref) := d.body.foldl (add E d.name) []

/-- The modules of the library that a statement imports. -/
def uses : Top → List Name
  | .from_ p x => if (E.external.lookup p).isSome then [] else p :: (match E.sub p x with | some k => [k.name] | none => [])
  | _ => []

/-- The modules of the library that a module imports: its package, and those of its statements. -/
def Module.deps (d : Module) : List Name := (match d.parent with | none => [] | some (p, _) => [p]) ++ d.body.flatMap (uses E)

/-- Importing the first makes the second be imported. -/
inductive Needs : Name → Name → Prop
  | refl (m : Name) : Needs m m
  | step {m k j : Name} {d : Module} : E.find m = some d → k ∈ d.deps E → Needs k j → Needs m j

/-- The place of a module in the program. -/
def Env.rank (m : Name) : Nat := E.program.findIdx (·.name == m)

/-- `resolve`, as the text of the program says. -/
def resolves (r : Ref) (rest : Path) : Bool :=
  rest == [] || match r with
  | .external m n => match E.external.lookup m with
    | some names => names.contains (n ++ rest)
    | none => false
  | .module k => match E.find k with
    | some d => d.made.any fun p => p.2.contains rest && (d.names E).lookup p.1 == some (.made k p.1)
    | none => false
  | .made k n => match E.find k with
    | some d => match d.made.lookup n with
      | some l => l.contains (n :: rest)
      | none => false
    | none => false

/-- `found`, as the text of the program says. -/
def finds (bs : List (Name × Ref)) (p : Name × Path) : Bool :=
  match bs.lookup p.1 with
  | some r => resolves E r p.2
  | none => E.builtins.contains (p.1 :: p.2)

/-- The statement can be run where these names are bound. -/
def fitsTop (bs : List (Name × Ref)) : Top → Bool
  | .import_ n => (E.external.lookup n).isSome
  | .from_ p x => match E.external.lookup p with
    | some names => names.contains [x]
    | none => match E.find p with
      | some d => match E.sub p x with
        | some _ => d.body.isEmpty
        | none => (d.names E).lookup x == some (.made p x)
      | none => false
  | .check => !E.old
  | .define _ l _ => l.all (finds E bs)

def fitsBody (m : Name) : List (Name × Ref) → List Top → Bool
  | _, [] => true
  | bs, s :: rest => fitsTop E bs s && fitsBody m (add E m bs s) rest

/-- The module comes after those that it imports, and they have what it wants. -/
def fitsModule (d : Module) : Bool :=
  (match d.parent with
    | none => true
    | some (p, x) => (match E.find p with | some dp => dp.body.isEmpty | none => false) && (match E.sub p x with | some k => k.name == d.name | none => false)) &&
  (d.deps E).all (fun k => (E.find k).isSome && decide (E.rank k < E.rank d.name)) && fitsBody E d.name [] d.body

variable {E}

theorem find_some {m : Name} {d : Module} (h : E.find m = some d) : d ∈ E.program ∧ d.name = m :=
  ⟨List.mem_of_find?_eq_some h, by have := List.find?_some h; exact beq_iff_eq.1 this⟩
theorem sub_some {p x : Name} {d : Module} (h : E.sub p x = some d) : d ∈ E.program ∧ d.parent = some (p, x) :=
  ⟨List.mem_of_find?_eq_some h, by have := List.find?_some h; exact beq_iff_eq.1 this⟩

/-- All modules fit. -/
def Fits (E : Env) : Prop := E.program.all (fitsModule E) = true

theorem Fits.module (hE : Fits E) {m : Name} {d : Module} (h : E.find m = some d) : fitsModule E d = true := List.all_eq_true.1 hE d (find_some h).1

theorem Fits.deps (hE : Fits E) {m : Name} {d : Module} (h : E.find m = some d) {k : Name} (hk : k ∈ d.deps E) : (E.find k).isSome = true ∧ E.rank k < E.rank m := by
  have := hE.module h
  unfold fitsModule at this
  rw [Bool.and_eq_true, Bool.and_eq_true, List.all_eq_true] at this
  have := this.1.2 k hk
  rw [Bool.and_eq_true, decide_eq_true_iff, (find_some h).2] at this
  exact this

theorem Fits.body (hE : Fits E) {m : Name} {d : Module} (h : E.find m = some d) : fitsBody E m [] d.body = true := by
  have := hE.module h
  unfold fitsModule at this
  rw [Bool.and_eq_true, (find_some h).2] at this
  exact this.2

theorem Fits.parent (hE : Fits E) {m : Name} {d : Module} (h : E.find m = some d) {p x : Name} (hp : d.parent = some (p, x)) :
    (∃ dp, E.find p = some dp ∧ dp.body = []) ∧ ∃ k, E.sub p x = some k ∧ k.name = m := by
  have := hE.module h
  unfold fitsModule at this
  rw [hp, Bool.and_eq_true, Bool.and_eq_true] at this
  have := this.1.1
  dsimp only at this
  rw [Bool.and_eq_true, (find_some h).2] at this
  constructor
  · cases hf : E.find p with
    | none => rw [hf] at this; exact absurd this.1 (by simp)
    | some dp => rw [hf] at this; exact ⟨dp, rfl, List.isEmpty_iff.1 this.1⟩
  · cases hf : E.sub p x with
    | none => rw [hf] at this; exact absurd this.2 (by simp)
    | some k => rw [hf] at this; exact ⟨k, rfl, beq_iff_eq.1 this.2⟩

theorem needs_rank (hE : Fits E) {m k : Name} (h : Needs E m k) : E.rank k ≤ E.rank m := by
  induction h with
  | refl => exact Nat.le_refl _
  | step h1 h2 _ ih => exact Nat.le_trans ih (Nat.le_of_lt (hE.deps h1 h2).2)

/-- The names that a module has when it has been imported: of a package, its modules; of another, those of its text. -/
def Full (E : Env) (w : World) (d : Module) (ns : Namespace) : Prop :=
  if d.body = [] then ∀ x r, ns x = some r → ∃ k, E.sub d.name x = some k ∧ r = .module k.name ∧ (w.modules k.name).isSome = true
  else ∀ x, ns x = (d.names E).lookup x

theorem Full.mono {E : Env} {w w' : World} {d : Module} {ns : Namespace} (h : Full E w d ns) (hw : ∀ k, (w.modules k).isSome = true → (w'.modules k).isSome = true) :
    Full E w' d ns := by
  unfold Full at h ⊢
  split
  · rename_i hb
    rw [if_pos hb] at h
    intro x r hx
    obtain ⟨k, h1, h2, h3⟩ := h x r hx
    exact ⟨k, h1, h2, hw _ h3⟩
  · rename_i hb
    rw [if_neg hb] at h
    exact h

/-- The modules have been imported, except those of `P`, which are being imported. -/
structure Inv (E : Env) (P : List Name) (w : World) : Prop where
  full : ∀ m ns, w.modules m = some ns → m ∉ P → ∃ d, E.find m = some d ∧ Full E w d ns
  deps : ∀ m d, (w.modules m).isSome = true → m ∉ P → E.find m = some d → ∀ k ∈ d.deps E, (w.modules k).isSome = true ∧ k ∉ P
  listed : ∀ m d p x, (w.modules m).isSome = true → m ∉ P → E.find m = some d → d.parent = some (p, x) →
    ∃ ns, w.modules p = some ns ∧ ns x = some (.module m)
  ran : ∀ m, m ∈ w.ran ↔ (w.modules m).isSome = true
  once : w.ran.Nodup

theorem Inv.needs {P : List Name} {w : World} (h : Inv E P w) {m k : Name} (hn : Needs E m k) (hm : (w.modules m).isSome = true) (hP : m ∉ P) :
    (w.modules k).isSome = true ∧ k ∉ P := by
  induction hn with
  | refl => exact ⟨hm, hP⟩
  | step h1 h2 _ ih =>
    obtain ⟨h3, h4⟩ := h.deps _ _ hm hP h1 _ h2
    exact ih h3 h4

/-- More modules are there: those of `N`. -/
structure Grown (P : List Name) (N : Name → Prop) (w w' : World) : Prop where
  same : ∀ q ∈ P, w'.modules q = w.modules q
  mono : ∀ k, (w.modules k).isSome = true → (w'.modules k).isSome = true
  new : ∀ k, (w'.modules k).isSome = true → (w.modules k).isSome = true ∨ N k

theorem Grown.refl {P : List Name} {N : Name → Prop} (w : World) : Grown P N w w := ⟨fun _ _ => rfl, fun _ h => h, fun _ h => .inl h⟩
theorem Grown.trans {P : List Name} {N : Name → Prop} {w w' w'' : World} (h : Grown P N w w') (h' : Grown P N w' w'') : Grown P N w w'' :=
  ⟨fun q hq => (h'.same q hq).trans (h.same q hq), fun k hk => h'.mono k (h.mono k hk), fun k hk => (h'.new k hk).elim (h.new k) .inr⟩
theorem Grown.weaken {P P' : List Name} {N N' : Name → Prop} {w w' : World} (h : Grown P N w w') (hP : ∀ q ∈ P', q ∈ P) (hN : ∀ k, N k → N' k) : Grown P' N' w w' :=
  ⟨fun q hq => h.same q (hP q hq), h.mono, fun k hk => (h.new k hk).imp_right (hN k)⟩

theorem bind_isSome (w : World) (m x : Name) (r : Ref) (k : Name) : ((w.bind m x r).modules k).isSome = (w.modules k).isSome := by
  unfold World.bind
  dsimp only
  split
  · cases w.modules k <;> rfl
  · rfl
theorem bind_other (w : World) {m k : Name} (x : Name) (r : Ref) (h : k ≠ m) : (w.bind m x r).modules k = w.modules k := by
  unfold World.bind
  dsimp only
  rw [if_neg h]

/-- `bind` in a module that is being imported. -/
theorem bind_inv {P : List Name} {w : World} (h : Inv E P w) {m : Name} (hm : m ∈ P) (x : Name) (r : Ref) : Inv E P (w.bind m x r) := by
  refine ⟨fun k ns hk hP => ?_, fun k d hk hP hf j hj => ?_, fun k d p y hk hP hf hp => ?_, fun k => ?_, h.once⟩
  · rw [bind_other w x r (by rintro rfl; exact hP hm)] at hk
    obtain ⟨d, h1, h2⟩ := h.full k ns hk hP
    exact ⟨d, h1, h2.mono fun j hj => by rw [bind_isSome]; exact hj⟩
  · rw [bind_isSome] at hk ⊢
    exact h.deps k d hk hP hf j hj
  · rw [bind_isSome] at hk
    rw [bind_other w x r]
    · exact h.listed k d p y hk hP hf hp
    · rintro rfl
      exact (h.deps k d hk hP hf p (by rw [Module.deps, hp]; simp)).2 hm
  · rw [bind_isSome]
    exact h.ran k
theorem bind_grown {P : List Name} {N : Name → Prop} (w : World) {m : Name} (hm : m ∉ P) (x : Name) (r : Ref) : Grown P N w (w.bind m x r) :=
  ⟨fun q hq => bind_other w x r (by rintro rfl; exact hm hq), fun k hk => by rw [bind_isSome]; exact hk, fun k hk => by rw [bind_isSome] at hk; exact .inl hk⟩

theorem bind_names (w : World) (m x : Name) (r : Ref) {bs : List (Name × Ref)} (h : w.modules m = some fun y => bs.lookup y) :
    (w.bind m x r).modules m = some fun y => ((x, r) :: bs).lookup y := by
  unfold World.bind
  dsimp only
  rw [if_pos rfl, h]
  show some _ = some _
  congr 1
  funext y
  show (if y = x then some r else bs.lookup y) = _
  rw [List.lookup_cons]
  by_cases e : y = x
  · subst e; rw [if_pos rfl, beq_self_eq_true]
  · rw [if_neg e, beq_false_of_ne e]

/-- What the text says is found is found. -/
theorem resolve_of {w : World} {r : Ref} {rest : Path} (h : resolves E r rest = true)
    (hr : ∀ k, r = .module k → ∃ d ns, E.find k = some d ∧ w.modules k = some ns ∧ Full E w d ns) : resolve E w r rest = true := by
  unfold resolves at h
  unfold resolve
  rw [Bool.or_eq_true] at h ⊢
  refine h.imp id fun h => ?_
  cases r with
  | external m n => exact h
  | made k n => exact h
  | module k =>
    obtain ⟨d, ns, h1, h2, h3⟩ := hr k rfl
    dsimp only at h ⊢
    rw [h1] at h ⊢
    rw [h2]
    dsimp only at h ⊢
    rw [List.any_eq_true] at h ⊢
    obtain ⟨p, hp, h4⟩ := h
    refine ⟨p, hp, ?_⟩
    have hb : d.body ≠ [] := by
      intro hb
      unfold Module.made at hp
      rw [hb] at hp
      cases hp
    unfold Full at h3
    rw [if_neg hb] at h3
    rw [h3]
    exact h4

/-- The modules that names stand for have been imported. -/
def Backed (_E : Env) (P : List Name) (w : World) (bs : List (Name × Ref)) : Prop := ∀ x k, (x, Ref.module k) ∈ bs → (w.modules k).isSome = true ∧ k ∉ P

theorem Backed.ref {P : List Name} {w : World} (h : Inv E P w) {bs : List (Name × Ref)} (hb : Backed E P w bs) {x : Name} {r : Ref} (hx : bs.lookup x = some r) :
    ∀ k, r = .module k → ∃ d ns, E.find k = some d ∧ w.modules k = some ns ∧ Full E w d ns := by
  rintro k rfl
  have hm : (x, Ref.module k) ∈ bs := by
    obtain ⟨l, l', e, _⟩ := List.lookup_eq_some_iff.1 hx
    rw [e]
    simp
  obtain ⟨h1, h2⟩ := hb x k hm
  obtain ⟨ns, hns⟩ := Option.isSome_iff_exists.1 h1
  obtain ⟨d, h3, h4⟩ := h.full k ns hns h2
  exact ⟨d, ns, h3, hns, h4⟩

theorem found_of {P : List Name} {w : World} (h : Inv E P w) {bs : List (Name × Ref)} (hb : Backed E P w bs) {m : Name} {ns : Namespace}
    (hm : w.modules m = some ns) (hns : ∀ y, ns y = bs.lookup y) {p : Name × Path} (hp : finds E bs p = true) : found E w m p = true := by
  unfold finds at hp
  unfold found
  rw [hm]
  show (match ns p.1 with | some r => _ | none => _) = true
  rw [hns]
  cases hx : bs.lookup p.1 with
  | none => rw [hx] at hp; exact hp
  | some r => rw [hx] at hp; exact resolve_of hp (hb.ref h hx)

/-- How modules are loaded, with bound `n`: all those of lower rank. -/
def Loads (E : Env) (ld : Name → World → Res) (n : Nat) : Prop :=
  ∀ (k : Name) (P : List Name) (w : World), E.rank k < n → (E.find k).isSome = true → Inv E P w → (∀ q ∈ P, E.rank k < E.rank q) →
    ∃ w', ld k w = (none, w') ∧ Inv E P w' ∧ (w'.modules k).isSome = true ∧ Grown P (Needs E k) w w'

/-- A statement. -/
theorem exec_ok (hE : Fits E) {ld : Name → World → Res} {n : Nat} (hl : Loads E ld n) {m : Name} {d : Module} (hd : E.find m = some d) (hn : E.rank m ≤ n)
    {P : List Name} (hP : ∀ q ∈ P, E.rank m < E.rank q) {s : Top} (hs : ∀ k ∈ uses E s, k ∈ d.deps E) {bs : List (Name × Ref)} (hf : fitsTop E bs s = true) {w : World}
    (hi : Inv E (m :: P) w) (hw : w.modules m = some fun y => bs.lookup y) (hb : Backed E (m :: P) w bs) :
    ∃ w', exec E ld m s w = (none, w') ∧ Inv E (m :: P) w' ∧ (w'.modules m = some fun y => (add E m bs s).lookup y) ∧ Backed E (m :: P) w' (add E m bs s) ∧
      Grown P (fun j => ∃ k ∈ uses E s, Needs E k j) w w' ∧ ∀ k ∈ uses E s, (w'.modules k).isSome = true ∧ k ∉ m :: P := by
  have hmP : m ∉ P := fun h => Nat.lt_irrefl _ (hP m h)
  have hup : ∀ k ∈ d.deps E, ∀ q ∈ m :: P, E.rank k < E.rank q := fun k hk q hq => by
    have h1 := (hE.deps hd hk).2
    rcases List.mem_cons.1 hq with rfl | hq
    · exact h1
    · exact Nat.lt_trans h1 (hP q hq)
  have hout : ∀ k ∈ d.deps E, k ∉ m :: P := fun k hk h => Nat.lt_irrefl _ (hup k hk k h)
  have hld : ∀ k ∈ d.deps E, ∀ w, Inv E (m :: P) w → ∃ w', ld k w = (none, w') ∧ Inv E (m :: P) w' ∧ (w'.modules k).isSome = true ∧ Grown (m :: P) (Needs E k) w w' :=
    fun k hk w hi => hl k (m :: P) w (Nat.lt_of_lt_of_le (hE.deps hd hk).2 hn) (hE.deps hd hk).1 hi (hup k hk)
  have simple : ∀ x r (w : World), (∀ k, r = Ref.module k → (w.modules k).isSome = true ∧ k ∉ m :: P) → Inv E (m :: P) w → (w.modules m = some fun y => bs.lookup y) →
      Backed E (m :: P) w bs → Inv E (m :: P) (w.bind m x r) ∧ ((w.bind m x r).modules m = some fun y => ((x, r) :: bs).lookup y) ∧
      Backed E (m :: P) (w.bind m x r) ((x, r) :: bs) ∧ Grown P (fun _ => False) w (w.bind m x r) := fun x r w hr hi hw hb => by
    refine ⟨bind_inv hi (by simp) x r, bind_names w m x r hw, fun y k hk => ?_, bind_grown w hmP x r⟩
    rw [bind_isSome]
    rcases List.mem_cons.1 hk with h | h
    · exact hr k (congrArg Prod.snd h).symm
    · exact hb y k h
  cases s with
  | import_ x =>
    obtain ⟨h1, h2, h3, h4⟩ := simple x (.external x []) w (by rintro k ⟨⟩) hi hw hb
    refine ⟨_, ?_, h1, h2, h3, h4.weaken (fun _ h => h) (fun _ h => h.elim), by rintro k ⟨⟩⟩
    rw [exec]
    exact if_pos hf
  | check =>
    refine ⟨w, ?_, hi, hw, hb, Grown.refl w, by rintro k ⟨⟩⟩
    rw [exec]
    have : E.old = false := by simpa [fitsTop] using hf
    rw [if_neg (by rw [this]; decide)]
  | define x l _ =>
    obtain ⟨h1, h2, h3, h4⟩ := simple x (.made m x) w (by rintro k ⟨⟩) hi hw hb
    refine ⟨_, ?_, h1, h2, h3, h4.weaken (fun _ h => h) (fun _ h => h.elim), by rintro k ⟨⟩⟩
    rw [exec, if_pos]
    rw [fitsTop, List.all_eq_true] at hf
    rw [List.all_eq_true]
    exact fun p hp => found_of hi hb hw (fun _ => rfl) (hf p hp)
  | from_ p x =>
    cases he : E.external.lookup p with
    | some names =>
      rw [fitsTop, he] at hf
      have hadd : add E m bs (.from_ p x) = (x, .external p [x]) :: bs := by rw [add, binding, he]; rfl
      have huse : uses E (.from_ p x) = [] := by rw [uses, he]; rfl
      rw [hadd, huse]
      obtain ⟨h1, h2, h3, h4⟩ := simple x (.external p [x]) w (by rintro k ⟨⟩) hi hw hb
      refine ⟨_, ?_, h1, h2, h3, h4.weaken (fun _ h => h) (fun _ h => h.elim), by rintro k ⟨⟩⟩
      rw [exec, he]
      dsimp only
      exact if_pos hf
    | none =>
      have hp : p ∈ uses E (.from_ p x) := by rw [uses, he]; exact List.mem_cons_self
      obtain ⟨w1, e1, i1, l1, g1⟩ := hld p (hs p hp) w hi
      have hw1 : w1.modules m = some fun y => bs.lookup y := (g1.same m (by simp)).trans hw
      have hb1 : Backed E (m :: P) w1 bs := fun y k hk => ⟨g1.mono k (hb y k hk).1, (hb y k hk).2⟩
      have g1' : Grown P (fun j => ∃ k ∈ uses E (.from_ p x), Needs E k j) w w1 := g1.weaken (by simp +contextual) fun j hj => ⟨p, hp, hj⟩
      obtain ⟨ns, hns⟩ := Option.isSome_iff_exists.1 l1
      obtain ⟨dp, hdp, hfull⟩ := i1.full p ns hns (hout p (hs p hp))
      rw [fitsTop, he] at hf
      dsimp only at hf
      rw [hdp] at hf
      dsimp only at hf
      have hex : exec E ld m (.from_ p x) w = (match ns x with
          | some r => (none, w1.bind m x r)
          | none => match E.sub p x with
            | some k => (ld k.name w1).then fun w => (none, w.bind m x (.module k.name))
            | none => (some .importError, w1)) := by
        rw [exec, he]
        dsimp only
        rw [e1]
        show (match (w1.modules p).bind (· x) with | some r => _ | none => _) = _
        rw [hns]
        rfl
      rw [hex]
      cases hsub : E.sub p x with
      | none =>
        rw [hsub] at hf
        replace hf : (dp.names E).lookup x = some (.made p x) := beq_iff_eq.1 hf
        have hbody : dp.body ≠ [] := by
          intro hb
          unfold Module.names at hf
          rw [hb] at hf
          cases hf
        unfold Full at hfull
        rw [if_neg hbody] at hfull
        rw [hfull, hf]
        have hadd : add E m bs (.from_ p x) = (x, .made p x) :: bs := by rw [add, binding, he, hsub]; rfl
        have huse : uses E (.from_ p x) = [p] := by rw [uses, he, hsub]; rfl
        obtain ⟨h1, h2, h3, h4⟩ := simple x (.made p x) w1 (by rintro k ⟨⟩) i1 hw1 hb1
        rw [hadd]
        refine ⟨_, rfl, h1, h2, h3, g1'.trans (h4.weaken (fun _ h => h) (fun _ h => h.elim)), fun k hk => ?_⟩
        rw [bind_isSome]
        rw [huse, List.mem_singleton] at hk
        subst hk
        exact ⟨l1, hout _ (hs _ hp)⟩
      | some k =>
        rw [hsub] at hf
        have hbody : dp.body = [] := List.isEmpty_iff.1 hf
        have hadd : add E m bs (.from_ p x) = (x, .module k.name) :: bs := by rw [add, binding, he, hsub]; rfl
        have huse : uses E (.from_ p x) = [p, k.name] := by rw [uses, he, hsub]; rfl
        have hk : k.name ∈ uses E (.from_ p x) := by rw [huse]; simp
        rw [hadd]
        dsimp only
        unfold Full at hfull
        rw [if_pos hbody] at hfull
        obtain ⟨w2, e2, i2, l2, g2⟩ : ∃ w2, (match ns x with | some r => (none, w1.bind m x r) | none => (ld k.name w1).then fun w => (none, w.bind m x (.module k.name)))
            = (none, w2.bind m x (.module k.name)) ∧ Inv E (m :: P) w2 ∧ (w2.modules k.name).isSome = true ∧ Grown (m :: P) (Needs E k.name) w1 w2 := by
          cases hx : ns x with
          | some r =>
            obtain ⟨k', h1, h2, h3⟩ := hfull x r hx
            rw [(find_some hdp).2, hsub] at h1
            cases h1
            subst h2
            exact ⟨w1, rfl, i1, h3, Grown.refl w1⟩
          | none =>
            obtain ⟨w2, e2, h⟩ := hld k.name (hs _ hk) w1 i1
            exact ⟨w2, by dsimp only; rw [e2]; rfl, h⟩
        have hw2 : w2.modules m = some fun y => bs.lookup y := (g2.same m (by simp)).trans hw1
        have hb2 : Backed E (m :: P) w2 bs := fun y k hk => ⟨g2.mono k (hb1 y k hk).1, (hb1 y k hk).2⟩
        have g2' : Grown P (fun j => ∃ k ∈ uses E (.from_ p x), Needs E k j) w1 w2 := g2.weaken (by simp +contextual) fun j hj => ⟨_, hk, hj⟩
        obtain ⟨h1, h2, h3, h4⟩ := simple x (.module k.name) w2 (by rintro k ⟨⟩; exact ⟨l2, hout _ (hs _ hk)⟩) i2 hw2 hb2
        refine ⟨_, e2, h1, h2, h3, (g1'.trans g2').trans (h4.weaken (fun _ h => h) (fun _ h => h.elim)), fun j hj => ?_⟩
        rw [bind_isSome]
        rw [huse] at hj
        rcases List.mem_cons.1 hj with rfl | hj
        · exact ⟨g2.mono _ l1, hout _ (hs _ hp)⟩
        · rw [List.mem_singleton.1 hj]
          exact ⟨l2, hout _ (hs _ hk)⟩


/-- The statements that are left. -/
theorem execs_ok (hE : Fits E) {ld : Name → World → Res} {n : Nat} (hl : Loads E ld n) {m : Name} {d : Module} (hd : E.find m = some d) (hn : E.rank m ≤ n)
    {P : List Name} (hP : ∀ q ∈ P, E.rank m < E.rank q) : ∀ (l : List Top) (_ : ∀ s ∈ l, ∀ k ∈ uses E s, k ∈ d.deps E) (bs : List (Name × Ref))
    (_ : fitsBody E m bs l = true) (w : World) (_ : Inv E (m :: P) w) (_ : w.modules m = some fun y => bs.lookup y) (_ : Backed E (m :: P) w bs),
    ∃ w', execs E ld m l w = (none, w') ∧ Inv E (m :: P) w' ∧ (w'.modules m = some fun y => (l.foldl (add E m) bs).lookup y) ∧
      Grown P (fun j => ∃ s ∈ l, ∃ k ∈ uses E s, Needs E k j) w w' ∧ ∀ s ∈ l, ∀ k ∈ uses E s, (w'.modules k).isSome = true ∧ k ∉ m :: P
  | [], _, bs, _, w, hi, hw, _ => ⟨w, rfl, hi, hw, Grown.refl w, by rintro s ⟨⟩⟩
  | s :: l, hs, bs, hf, w, hi, hw, hb => by
    rw [fitsBody, Bool.and_eq_true] at hf
    obtain ⟨w1, e1, i1, m1, b1, g1, u1⟩ := exec_ok hE hl hd hn hP (hs s (by simp)) hf.1 hi hw hb
    obtain ⟨w2, e2, i2, m2, g2, u2⟩ := execs_ok hE hl hd hn hP l (fun s h => hs s (by simp [h])) _ hf.2 w1 i1 m1 b1
    refine ⟨w2, ?_, i2, m2, ?_, ?_⟩
    · rw [execs, e1]
      exact e2
    · refine (g1.weaken (fun _ h => h) ?_).trans (g2.weaken (fun _ h => h) ?_)
      · rintro j ⟨k, hk, h⟩
        exact ⟨s, by simp, k, hk, h⟩
      · rintro j ⟨s', hs', h⟩
        exact ⟨s', by simp [hs'], h⟩
    · intro s' hs' k hk
      rcases List.mem_cons.1 hs' with rfl | hs'
      · exact ⟨g2.mono k (u1 k hk).1, (u1 k hk).2⟩
      · exact u2 s' hs' k hk

/-- A module. -/
theorem load_ok (hE : Fits E) : ∀ n, Loads E (load E n) n
  | 0, k, P, w, h, _, _, _ => absurd h (Nat.not_lt_zero _)
  | n + 1, m, P, w, hn, hf, hi, hP => by
    obtain ⟨d, hd⟩ := Option.isSome_iff_exists.1 hf
    rw [load]
    by_cases hm : (w.modules m).isSome = true
    · rw [if_pos hm]
      exact ⟨w, rfl, hi, hm, Grown.refl w⟩
    rw [if_neg hm, hd]
    dsimp only
    have ih := load_ok hE n
    have hmP : m ∉ P := fun h => Nat.lt_irrefl _ (hP m h)
    have hneeds : ∀ k ∈ d.deps E, ∀ j, Needs E k j → Needs E m j := fun k hk j h => .step hd hk h
    obtain ⟨w1, e1, i1, p1, g1⟩ : ∃ w1, (match d.parent with | none => ((none, w) : Res) | some (p, _) => load E n p w) = (none, w1) ∧ Inv E P w1 ∧
        (∀ p x, d.parent = some (p, x) → (w1.modules p).isSome = true ∧ p ∉ P) ∧ Grown P (fun j => ∃ k ∈ d.deps E, Needs E k j) w w1 := by
      cases hp : d.parent with
      | none => exact ⟨w, rfl, hi, by rintro p x ⟨⟩, Grown.refl w⟩
      | some q =>
        obtain ⟨p, x⟩ := q
        have hk : p ∈ d.deps E := by rw [Module.deps, hp]; simp
        obtain ⟨h1, h2⟩ := hE.deps hd hk
        have hup : ∀ q ∈ P, E.rank p < E.rank q := fun q hq => Nat.lt_trans h2 (hP q hq)
        obtain ⟨w1, e1, i1, l1, g1⟩ := ih p P w (by omega) h1 hi hup
        refine ⟨w1, e1, i1, ?_, g1.weaken (fun _ h => h) fun j hj => ⟨p, hk, hj⟩⟩
        rintro p' x' ⟨⟩
        exact ⟨l1, fun h => Nat.lt_irrefl _ (hup _ h)⟩
    have hm1 : ¬ (w1.modules m).isSome = true := by
      intro h
      rcases g1.new m h with h | ⟨k, hk, h⟩
      · exact hm h
      · have h1 := needs_rank hE h
        have h2 := (hE.deps hd hk).2
        omega
    have hstart : ∀ k, k ≠ m → (w1.start m).modules k = w1.modules k := fun k hk => if_neg hk
    have hself : (w1.start m).modules m = some fun y => [].lookup y := if_pos rfl
    have hmono : ∀ k, (w1.modules k).isSome = true → ((w1.start m).modules k).isSome = true := fun k hk => by
      rw [hstart k (by rintro rfl; exact hm1 hk)]; exact hk
    have i1' : Inv E (m :: P) (w1.start m) := by
      refine ⟨fun k ns hk hP => ?_, fun k d' hk hP hf j hj => ?_, fun k d' p x hk hP hf hp => ?_, fun k => ?_, ?_⟩
      · rw [List.mem_cons, not_or] at hP
        rw [hstart k hP.1] at hk
        obtain ⟨d', h1, h2⟩ := i1.full k ns hk hP.2
        exact ⟨d', h1, h2.mono hmono⟩
      · rw [List.mem_cons, not_or] at hP
        rw [hstart k hP.1] at hk
        obtain ⟨h1, h2⟩ := i1.deps k d' hk hP.2 hf j hj
        refine ⟨hmono j h1, ?_⟩
        rw [List.mem_cons, not_or]
        exact ⟨by rintro rfl; exact hm1 h1, h2⟩
      · rw [List.mem_cons, not_or] at hP
        rw [hstart k hP.1] at hk
        obtain ⟨ns, h1, h2⟩ := i1.listed k d' p x hk hP.2 hf hp
        refine ⟨ns, ?_, h2⟩
        rw [hstart p (by rintro rfl; rw [h1] at hm1; exact hm1 rfl)]
        exact h1
      · show k ∈ w1.ran ++ [m] ↔ _
        rw [List.mem_append, List.mem_singleton, i1.ran]
        by_cases h : k = m
        · subst h; rw [hself]; simp
        · rw [hstart k h]; simp [h]
      · show (w1.ran ++ [m]).Nodup
        rw [List.nodup_append]
        refine ⟨i1.once, by simp, fun a ha b hb => ?_⟩
        rw [List.mem_singleton] at hb
        subst hb
        rintro rfl
        exact hm1 ((i1.ran _).1 ha)
    have huses : ∀ s ∈ d.body, ∀ k ∈ uses E s, k ∈ d.deps E := fun s hs k hk => List.mem_append_right _ (List.mem_flatMap.2 ⟨s, hs, hk⟩)
    obtain ⟨w2, e2, i2, m2, g2, u2⟩ := execs_ok hE ih hd (by omega) hP d.body huses [] (hE.body hd) (w1.start m) i1' hself (by rintro x k ⟨⟩)
    have hnames : d.body.foldl (add E m) [] = d.names E := by rw [Module.names, (find_some hd).2]
    rw [hnames] at m2
    have hfullm : ∀ w3 : World, Full E w3 d fun y => (d.names E).lookup y := by
      intro w3
      unfold Full
      split
      · rename_i hb
        intro x r hx
        unfold Module.names at hx
        rw [hb] at hx
        cases hx
      · exact fun x => rfl
    have g12 : Grown P (Needs E m) w w2 := by
      refine ⟨fun q hq => ?_, fun k hk => ?_, fun k hk => ?_⟩
      · rw [g2.same q hq, hstart q (by rintro rfl; exact hmP hq), g1.same q hq]
      · exact g2.mono k (hmono k (g1.mono k hk))
      · rcases g2.new k hk with h | ⟨s, hs, j, hj, h⟩
        · by_cases hkm : k = m
          · subst hkm; exact .inr (.refl _)
          · rw [hstart k hkm] at h
            rcases g1.new k h with h | ⟨j, hj, h⟩
            · exact .inl h
            · exact .inr (hneeds j hj k h)
        · exact .inr (hneeds j (huses s hs j hj) k h)
    have hdeps : ∀ k ∈ d.deps E, (w2.modules k).isSome = true ∧ k ∉ P := by
      intro k hk
      rcases List.mem_append.1 hk with h | h
      · cases hp : d.parent with
        | none => rw [hp] at h; cases h
        | some q =>
          rw [hp] at h
          rw [List.mem_singleton.1 h]
          obtain ⟨h1, h2⟩ := p1 q.1 q.2 hp
          exact ⟨g2.mono _ (hmono _ h1), h2⟩
      · obtain ⟨s, hs, hk⟩ := List.mem_flatMap.1 h
        obtain ⟨h1, h2⟩ := u2 s hs k hk
        exact ⟨h1, fun h => h2 (List.mem_cons_of_mem _ h)⟩
    have hnot : ∀ k, k ∉ P → k ≠ m → k ∉ m :: P := fun k h1 h2 h => (List.mem_cons.1 h).elim h2 h1
    cases hp : d.parent with
    | none =>
      rw [hp] at e1
      have e1' : w = w1 := congrArg Prod.snd e1
      subst e1'
      refine ⟨w2, ?_, ⟨fun k ns hk hQ => ?_, fun k d' hk hQ hg j hj => ?_, fun k d' p x hk hQ hg hp' => ?_, i2.ran, i2.once⟩, ?_, g12⟩
      · show (match execs E (load E n) m d.body (w.start m) with | (some e, w) => (some e, w.drop m) | (none, w) => (none, w)) = _
        rw [e2]
      · by_cases hkm : k = m
        · subst hkm
          rw [m2] at hk
          injection hk with hk
          subst hk
          exact ⟨d, hd, hfullm w2⟩
        · exact i2.full k ns hk (hnot k hQ hkm)
      · by_cases hkm : k = m
        · subst hkm
          rw [hd] at hg
          injection hg with hg
          subst hg
          exact hdeps j hj
        · obtain ⟨h1, h2⟩ := i2.deps k d' hk (hnot k hQ hkm) hg j hj
          exact ⟨h1, fun h => h2 (List.mem_cons_of_mem _ h)⟩
      · by_cases hkm : k = m
        · subst hkm
          rw [hd] at hg
          injection hg with hg
          subst hg
          rw [hp] at hp'
          cases hp'
        · exact i2.listed k d' p x hk (hnot k hQ hkm) hg hp'
      · rw [m2]; rfl
    | some q =>
      obtain ⟨p, x⟩ := q
      rw [hp] at e1
      replace e1 : load E n p w = (none, w1) := e1
      have hpd : p ∈ d.deps E := by rw [Module.deps, hp]; simp
      obtain ⟨lp, hpP⟩ := hdeps p hpd
      have hpm : p ≠ m := by
        rintro rfl
        exact Nat.lt_irrefl _ (hE.deps hd hpd).2
      obtain ⟨⟨dp, hdp, hbody⟩, k0, hsub, hk0⟩ := hE.parent hd hp
      have hat : ∀ ns, w2.modules p = some ns → (w2.bind p x (.module m)).modules p = some fun y => if y = x then some (.module m) else ns y := by
        intro ns h
        unfold World.bind
        dsimp only
        rw [if_pos rfl, h]
        rfl
      have hbm : ∀ k, (w2.modules k).isSome = true → ((w2.bind p x (.module m)).modules k).isSome = true := fun k h => by rw [bind_isSome]; exact h
      obtain ⟨nsp, hnsp⟩ := Option.isSome_iff_exists.1 lp
      refine ⟨w2.bind p x (.module m), ?_, ⟨fun k ns hk hQ => ?_, fun k d' hk hQ hg j hj => ?_, fun k d' p' x' hk hQ hg hp' => ?_, fun k => ?_, i2.once⟩, ?_,
        g12.trans (bind_grown w2 hpP x _)⟩
      · show (load E n p w).then (fun w => match execs E (load E n) m d.body (w.start m) with
          | (some e, w) => (some e, w.drop m) | (none, w) => (none, w.bind p x (.module m))) = _
        rw [e1]
        show (match execs E (load E n) m d.body (w1.start m) with
          | (some e, w) => (some e, w.drop m) | (none, w) => (none, w.bind p x (.module m))) = _
        rw [e2]
      · by_cases hkm : k = m
        · subst hkm
          rw [bind_other w2 _ _ (Ne.symm hpm), m2] at hk
          injection hk with hk
          subst hk
          exact ⟨d, hd, hfullm _⟩
        · by_cases hkp : k = p
          · subst hkp
            rw [hat nsp hnsp] at hk
            injection hk with hk
            subst hk
            obtain ⟨dp', h1, h2⟩ := i2.full k nsp hnsp (hnot k hQ hkm)
            rw [hdp] at h1
            injection h1 with h1
            subst h1
            refine ⟨dp, hdp, ?_⟩
            unfold Full at h2 ⊢
            rw [if_pos hbody] at h2 ⊢
            intro y r hy
            dsimp only at hy
            split at hy
            · rename_i hyx
              subst hyx
              injection hy with hy
              refine ⟨k0, by rw [(find_some hdp).2]; exact hsub, by rw [hk0]; exact hy.symm, ?_⟩
              rw [bind_isSome, hk0, m2]
              rfl
            · obtain ⟨k', h3, h4, h5⟩ := h2 y r hy
              exact ⟨k', h3, h4, hbm _ h5⟩
          · rw [bind_other w2 _ _ hkp] at hk
            obtain ⟨d', h1, h2⟩ := i2.full k ns hk (hnot k hQ hkm)
            exact ⟨d', h1, h2.mono hbm⟩
      · rw [bind_isSome] at hk ⊢
        by_cases hkm : k = m
        · subst hkm
          rw [hd] at hg
          injection hg with hg
          subst hg
          exact hdeps j hj
        · obtain ⟨h1, h2⟩ := i2.deps k d' hk (hnot k hQ hkm) hg j hj
          exact ⟨h1, fun h => h2 (List.mem_cons_of_mem _ h)⟩
      · rw [bind_isSome] at hk
        by_cases hkm : k = m
        · subst hkm
          rw [hd] at hg
          injection hg with hg
          subst hg
          rw [hp] at hp'
          injection hp' with hp'
          injection hp' with h1 h2
          subst h1
          subst h2
          exact ⟨_, hat nsp hnsp, if_pos rfl⟩
        · obtain ⟨ns, h1, h2⟩ := i2.listed k d' p' x' hk (hnot k hQ hkm) hg hp'
          by_cases hpp : p' = p
          · subst hpp
            refine ⟨_, hat ns h1, ?_⟩
            rw [if_neg ?_]
            · exact h2
            · rintro rfl
              obtain ⟨_, k1, h3, h4⟩ := hE.parent hg hp'
              rw [hsub] at h3
              injection h3 with h3
              subst h3
              exact hkm (h4.symm.trans hk0)
          · exact ⟨ns, by rw [bind_other w2 _ _ hpp]; exact h1, h2⟩
      · rw [bind_isSome]
        exact i2.ran k
      · rw [bind_isSome, m2]
        rfl

end Dmr.Py.Imports
