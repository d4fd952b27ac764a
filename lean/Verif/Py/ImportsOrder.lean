import Verif.Py.ImportsProofs
/-
A list of imports, whatever was imported before; and what happens when the API of kaitaistruct is too old.
-/

set_option autoImplicit false

namespace Dmr.Py.Imports

variable {E : Env}

theorem fresh_inv : Inv E [] World.fresh :=
  ⟨(by intro m ns h; cases h), (by intro m d h; cases h), (by intro m d p x h; cases h), (by intro m; constructor <;> (intro h; cases h)), List.nodup_nil⟩

theorem imports_ok (hE : Fits E) {n : Nat} : ∀ (l : List Name) (_ : ∀ m ∈ l, (E.find m).isSome = true ∧ E.rank m < n) (w : World) (_ : Inv E [] w),
    (imports E n l w).1 = l.map (fun _ => none) ∧ Inv E [] (imports E n l w).2 ∧
      ∀ k, ((imports E n l w).2.modules k).isSome = true ↔ (w.modules k).isSome = true ∨ ∃ m ∈ l, Needs E m k
  | [], _, w, hi => ⟨rfl, hi, fun k => by constructor; exact .inl; rintro (h | ⟨m, hm, _⟩); exact h; cases hm⟩
  | m :: l, hl, w, hi => by
    obtain ⟨w1, e1, i1, l1, g1⟩ := load_ok hE n m [] w (hl m (by simp)).2 (hl m (by simp)).1 hi (by rintro q ⟨⟩)
    obtain ⟨h1, h2, h3⟩ := imports_ok hE l (fun k hk => hl k (by simp [hk])) w1 i1
    have he : imports E n (m :: l) w = (none :: (imports E n l w1).1, (imports E n l w1).2) := by rw [imports, e1]
    rw [he]
    refine ⟨by rw [h1]; rfl, h2, fun k => ?_⟩
    rw [h3]
    constructor
    · rintro (h | ⟨j, hj, h⟩)
      · exact (g1.new k h).imp_right fun h => ⟨m, by simp, h⟩
      · exact .inr ⟨j, by simp [hj], h⟩
    · rintro (h | ⟨j, hj, h⟩)
      · exact .inl (g1.mono k h)
      · rcases List.mem_cons.1 hj with rfl | hj
        · exact .inl (i1.needs h l1 (by simp)).1
        · exact .inr ⟨j, hj, h⟩

/-- The names of a module whose statements have been run. -/
theorem Inv.text {w : World} (h : Inv E [] w) {m : Name} {d : Module} (hd : E.find m = some d) (hb : d.body ≠ []) (hm : (w.modules m).isSome = true) :
    w.modules m = some fun x => (d.names E).lookup x := by
  obtain ⟨ns, hns⟩ := Option.isSome_iff_exists.1 hm
  obtain ⟨d', h1, h2⟩ := h.full m ns hns (by simp)
  rw [hd] at h1
  injection h1 with h1
  subst h1
  unfold Full at h2
  rw [if_neg hb] at h2
  rw [hns, funext h2]

/-- The names of a package: its modules that have been imported. -/
theorem Inv.package (hu : ∀ d ∈ E.program, E.find d.name = some d) {w : World} (h : Inv E [] w) {m : Name} {d : Module} (hd : E.find m = some d) (hb : d.body = [])
    (hm : (w.modules m).isSome = true) :
    w.modules m = some fun x => match E.sub m x with | some k => if (w.modules k.name).isSome = true then some (.module k.name) else none | none => none := by
  obtain ⟨ns, hns⟩ := Option.isSome_iff_exists.1 hm
  obtain ⟨d', h1, h2⟩ := h.full m ns hns (by simp)
  rw [hd] at h1
  injection h1 with h1
  subst h1
  unfold Full at h2
  rw [if_pos hb, (find_some hd).2] at h2
  rw [hns]
  congr 1
  funext x
  cases hx : ns x with
  | some r =>
    obtain ⟨k, h3, h4, h5⟩ := h2 x r hx
    rw [h3]
    dsimp only
    rw [if_pos h5, h4]
  | none =>
    cases hs : E.sub m x with
    | none => rfl
    | some k =>
      dsimp only
      split
      · rename_i hk
        obtain ⟨h3, h4⟩ := sub_some hs
        obtain ⟨ns', h5, h6⟩ := h.listed k.name k m x hk (by simp) (hu k h3) h4
        rw [hns] at h5
        injection h5 with h5
        subst h5
        rw [hx] at h6
        cases h6
      · rfl

/-- Memories with the same modules are the same. -/
theorem Inv.same (hu : ∀ d ∈ E.program, E.find d.name = some d) {w w' : World} (h : Inv E [] w) (h' : Inv E [] w')
    (hs : ∀ k, (w.modules k).isSome = true ↔ (w'.modules k).isSome = true) : w.modules = w'.modules := by
  funext k
  cases hk : w.modules k with
  | none =>
    cases hk' : w'.modules k with
    | none => rfl
    | some ns' =>
      have := (hs k).2 (by rw [hk']; rfl)
      rw [hk] at this
      cases this
  | some ns =>
    have hm : (w.modules k).isSome = true := by rw [hk]; rfl
    have hm' := (hs k).1 hm
    obtain ⟨d, hd, _⟩ := h.full k ns hk (by simp)
    rw [← hk]
    by_cases hb : d.body = []
    · rw [h.package hu hd hb hm, h'.package hu hd hb hm']
      congr 1
      funext x
      cases E.sub k x with
      | none => rfl
      | some j =>
        dsimp only
        by_cases hj : (w.modules j.name).isSome = true
        · rw [if_pos hj, if_pos ((hs _).1 hj)]
        · rw [if_neg hj, if_neg fun h => hj ((hs _).2 h)]
    · rw [h.text hd hb hm, h'.text hd hb hm']

/-- The names that the functions of a module look up are those of its text. -/
def fitsLater (E : Env) (d : Module) : Bool := d.later.all (finds E (d.names E))

theorem names_backed (m : Name) : ∀ (l : List Top) (bs : List (Name × Ref)) (x k : Name), (x, Ref.module k) ∈ l.foldl (add E m) bs →
    (x, Ref.module k) ∈ bs ∨ ∃ s ∈ l, k ∈ uses E s
  | [], bs, x, k, h => .inl h
  | s :: l, bs, x, k, h => by
    rcases names_backed m l _ x k h with h | ⟨s', hs', h⟩
    · rw [add, List.mem_append] at h
      refine h.symm.imp id fun h => ⟨s, by simp, ?_⟩
      cases s with
      | import_ n => simp [binding] at h
      | check => simp [binding] at h
      | define n l ms => simp [binding] at h
      | from_ p n =>
        rw [binding] at h
        rw [uses]
        split at h
        · simp at h
        · rename_i he
          rw [if_neg he]
          cases hsub : E.sub p n with
          | none => rw [hsub] at h; simp at h
          | some j =>
            rw [hsub] at h
            simp at h
            simp [h.2]
    · exact .inr ⟨s', by simp [hs'], h⟩

theorem Inv.later {w : World} (h : Inv E [] w) {m : Name} {d : Module} (hd : E.find m = some d) (hb : d.body ≠ []) (hm : (w.modules m).isSome = true)
    (hf : fitsLater E d = true) : ∀ p ∈ d.later, found E w m p = true := by
  intro p hp
  have hback : Backed E [] w (d.names E) := by
    intro x k hk
    rcases names_backed d.name d.body [] x k hk with hk | ⟨s, hs, hk⟩
    · cases hk
    · exact h.deps m d hm (by simp) hd k (List.mem_append_right _ (List.mem_flatMap.2 ⟨s, hs, hk⟩))
  exact found_of h hback (h.text hd hb hm) (fun _ => rfl) (List.all_eq_true.1 hf p hp)

/-! The API of kaitaistruct is too old. -/

/-- No module that checks is there, except those being imported. -/
def Without (E : Env) (P : List Name) (w : World) : Prop := ∀ m d, E.find m = some d → Top.check ∈ d.body → m ∉ P → w.modules m = none

theorem without_bind {P : List Name} {w : World} (h : Without E P w) (m x : Name) (r : Ref) : Without E P (w.bind m x r) := by
  intro k d hk hd hP
  have := h k d hk hd hP
  have h2 := bind_isSome w m x r k
  rw [this] at h2
  exact Option.not_isSome_iff_eq_none.1 (by rw [h2]; simp)

theorem exec_without {ld : Name → World → Res} {P : List Name} (hl : ∀ k w, Without E P w → Without E P (ld k w).2) (m : Name) (s : Top) (w : World)
    (hw : Without E P w) : Without E P (exec E ld m s w).2 := by
  cases s with
  | import_ n => rw [exec]; split; exact without_bind hw _ _ _; exact hw
  | check => rw [exec]; split <;> exact hw
  | define x l ms => rw [exec]; split; exact without_bind hw _ _ _; exact hw
  | from_ p x =>
    rw [exec]
    split
    · split
      · exact without_bind hw _ _ _
      · exact hw
    · have h1 := hl p w hw
      generalize ld p w = r at h1
      obtain ⟨e, w1⟩ := r
      cases e with
      | some e => exact h1
      | none =>
        show Without E P (Prod.snd (match (w1.modules p).bind (· x) with | some r => _ | none => _))
        split
        · exact without_bind h1 _ _ _
        · split
          · rename_i k _
            have h2 := hl k.name w1 h1
            generalize ld k.name w1 = r at h2
            obtain ⟨e, w2⟩ := r
            cases e with
            | some e => exact h2
            | none => exact without_bind h2 _ _ _
          · exact h1

theorem execs_without {ld : Name → World → Res} {P : List Name} (hl : ∀ k w, Without E P w → Without E P (ld k w).2) (m : Name) :
    ∀ (l : List Top) (w : World), Without E P w → Without E P (execs E ld m l w).2
  | [], w, hw => hw
  | s :: l, w, hw => by
    rw [execs]
    have h := exec_without hl m s w hw
    generalize exec E ld m s w = r at h
    obtain ⟨e, w1⟩ := r
    cases e with
    | some e => exact h
    | none => exact execs_without hl m l w1 h

theorem execs_check (ho : E.old = true) {ld : Name → World → Res} (m : Name) : ∀ (l : List Top) (w : World), Top.check ∈ l → (execs E ld m l w).1 ≠ none
  | s :: l, w, hc => by
    rw [execs]
    rcases List.mem_cons.1 hc with rfl | hc
    · rw [exec, if_pos ho]
      simp [Res.then]
    · generalize exec E ld m s w = r
      obtain ⟨e, w1⟩ := r
      cases e with
      | some e => simp [Res.then]
      | none => exact execs_check ho m l w1 hc

/-- The package of a module is loaded. -/
def before (ld : Name → World → Res) (d : Module) (w : World) : Res := match d.parent with | none => (none, w) | some (p, _) => ld p w
/-- The module is made an attribute of its package. -/
def after (m : Name) (d : Module) (w : World) : World := match d.parent with | none => w | some (p, x) => w.bind p x (.module m)

theorem load_succ {m : Name} {d : Module} (hd : E.find m = some d) (n : Nat) (w : World) (hw : ¬ (w.modules m).isSome = true) :
    load E (n + 1) m w = (before (load E n) d w).then fun w =>
      match execs E (load E n) m d.body (w.start m) with
      | (some e, w) => (some e, w.drop m)
      | (none, w) => (none, after m d w) := by
  rw [load, if_neg hw, hd]
  rfl

/-- Whatever comes of an import, no module that checks is there after it. -/
theorem load_without (ho : E.old = true) : ∀ (n : Nat) (P : List Name) (m : Name) (w : World), Without E P w → Without E P (load E n m w).2
  | 0, P, m, w, hw => hw
  | n + 1, P, m, w, hw => by
    by_cases hm : (w.modules m).isSome = true
    · rw [load, if_pos hm]
      exact hw
    cases hd : E.find m with
    | none =>
      rw [load, if_neg hm, hd]
      exact hw
    | some d =>
      rw [load_succ hd n w hm]
      have h1 : Without E P (before (load E n) d w).2 := by
        unfold before
        split
        · exact hw
        · exact load_without ho n P _ w hw
      generalize before (load E n) d w = r at h1
      obtain ⟨e, w1⟩ := r
      cases e with
      | some e => exact h1
      | none =>
        show Without E P (Prod.snd (match execs E (load E n) m d.body (w1.start m) with | (some e, w) => (some e, w.drop m) | (none, w) => (none, after m d w)))
        have hs : Without E (m :: P) (w1.start m) := by
          intro k d' hk hd' hkP
          rw [List.mem_cons, not_or] at hkP
          show (if k = m then _ else _) = none
          rw [if_neg hkP.1]
          exact h1 k d' hk hd' hkP.2
        have h2 := execs_without (fun k w => load_without ho n (m :: P) k w) m d.body _ hs
        have h3 := execs_check ho (ld := load E n) m d.body (w1.start m)
        generalize execs E (load E n) m d.body (w1.start m) = r at h2 h3
        obtain ⟨e, w2⟩ := r
        cases e with
        | some e =>
          intro k d' hk hd' hkP
          show (if k = m then none else w2.modules k) = none
          split
          · rfl
          · rename_i hkm
            exact h2 k d' hk hd' (by rw [List.mem_cons, not_or]; exact ⟨hkm, hkP⟩)
        | none =>
          have hc : Top.check ∉ d.body := fun h => h3 h rfl
          have h4 : Without E P w2 := by
            intro k d' hk hd' hkP
            refine h2 k d' hk hd' ?_
            rw [List.mem_cons, not_or]
            refine ⟨?_, hkP⟩
            rintro rfl
            rw [hd] at hk
            injection hk with hk
            subst hk
            exact hc hd'
          dsimp only
          unfold after
          split
          · exact h4
          · exact without_bind h4 _ _ _

theorem imports_without (ho : E.old = true) (n : Nat) : ∀ (l : List Name) (w : World), Without E [] w → Without E [] (imports E n l w).2
  | [], w, hw => hw
  | m :: l, w, hw => imports_without ho n l _ (load_without ho n [] m w hw)

/-- The import of a module that checks fails. -/
theorem load_old (ho : E.old = true) {m : Name} {d : Module} (hd : E.find m = some d) (hc : Top.check ∈ d.body) : ∀ (n : Nat) (w : World), w.modules m = none →
    (load E n m w).1 ≠ none
  | 0, _, _ => by simp [load]
  | n + 1, w, hw => by
    rw [load_succ hd n w (by rw [hw]; simp)]
    generalize before (load E n) d w = r
    obtain ⟨e, w1⟩ := r
    cases e with
    | some e => simp [Res.then]
    | none =>
      show Prod.fst (match execs E (load E n) m d.body (w1.start m) with | (some e, w) => (some e, w.drop m) | (none, w) => (none, after m d w)) ≠ none
      have h3 := execs_check ho (ld := load E n) m d.body (w1.start m) hc
      generalize execs E (load E n) m d.body (w1.start m) = r at h3
      obtain ⟨e, w2⟩ := r
      cases e with
      | some e => simp
      | none => exact absurd rfl h3

end Dmr.Py.Imports
