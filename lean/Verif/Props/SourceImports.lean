import Verif.Py.ImportsOrder
import Verif.Py.ImportsSource
/-
C79: the modules may be imported in any order.
-/

set_option autoImplicit false

namespace Dmr.Py.Imports

/-- The modules of the library in a Python with kaitaistruct: what the library takes from others. -/
def python (old : Bool) : Env where
  program := Source.modules
  external := [(n!"kaitaistruct", [[n!"KaitaiStruct"], [n!"KaitaiStream"], [n!"KaitaiStream", n!"resolve_enum"], [n!"BytesIO"], [n!"ValidationNotEqualError"]]), (n!"enum", [[n!"Enum"]]),
    (n!"typing", [[n!"List"], [n!"Dict"], [n!"Type"], [n!"Optional"]]), (n!"argparse", [[n!"ArgumentParser"]]), (n!"pprint", [[n!"pprint"]]), (n!"sys", [[n!"argv"]])]
  builtins := [[n!"hasattr"], [n!"getattr"], [n!"len"], [n!"print"], [n!"str"], [n!"bytes"], [n!"bytes", n!"fromhex"],
    [n!"bytearray"], [n!"isinstance"], [n!"staticmethod"], [n!"int"], [n!"float"], [n!"bool"], [n!"Exception"],
    [n!"dict"], [n!"list"], [n!"range"], [n!"type"], [n!"property"], [n!"bin"], [n!"map"]]
  old := old

/-- The modules of the library. -/
def library : List Name := Source.modules.map (·.name)

theorem python_fits : Fits (python false) := by unfold Fits; decide +kernel

theorem python_later : Source.modules.all (fun d => (!d.body.isEmpty || d.later.isEmpty) && fitsLater (python false) d) = true := by decide +kernel

theorem python_from : Source.modules.all (fun d => d.body.all fun s => match s with
    | .from_ p x => match (python false).find p with
      | some dp => ((python false).external.lookup p).isNone && match (python false).sub p x with
        | some k => dp.body.isEmpty && (d.names (python false)).lookup x == some (.module k.name)
        | none => !dp.body.isEmpty && (d.names (python false)).lookup x == some (.made p x) && (dp.names (python false)).lookup x == some (.made p x)
      | none => true
    | _ => true) = true := by decide +kernel

theorem python_sub : Source.modules.all (fun k => match k.parent with
    | some (p, x) => (match (python false).sub p x with | some j => j.name == k.name | none => false)
    | none => true) = true := by decide +kernel

theorem library_find {m : Name} (h : m ∈ library) (old : Bool) : ((python old).find m).isSome = true ∧ (python old).rank m < 42 := by
  have : library.all (fun m => ((python old).find m).isSome && decide ((python old).rank m < 42)) = true := by cases old <;> decide +kernel
  have := List.all_eq_true.1 this m h
  rw [Bool.and_eq_true, decide_eq_true_iff] at this
  exact this

theorem library_unique (old : Bool) : ∀ d ∈ (python old).program, (python old).find d.name = some d := by
  intro d hd
  have hn : (Source.modules.map (·.name)).Nodup := by decide +kernel
  have key : ∀ (l : List Module), (l.map (·.name)).Nodup → d ∈ l → l.find? (·.name == d.name) = some d := by
    intro l
    induction l with
    | nil => intro _ h; cases h
    | cons a l ih =>
      intro hn h
      rw [List.map_cons, List.nodup_cons] at hn
      rw [List.find?_cons]
      rcases List.mem_cons.1 h with rfl | h
      · rw [beq_self_eq_true]
      · have hne : a.name ≠ d.name := fun e => hn.1 (List.mem_map.2 ⟨d, h, e.symm⟩)
        rw [beq_false_of_ne hne]
        exact ih hn.2 h
  exact key _ hn hd

variable {l l' : List Name} {n n' : Nat}

private theorem ready (hl : ∀ m ∈ l, m ∈ library) (hn : 42 ≤ n) : ∀ m ∈ l, ((python false).find m).isSome = true ∧ (python false).rank m < n :=
  fun m hm => ⟨(library_find (hl m hm) false).1, Nat.lt_of_lt_of_le (library_find (hl m hm) false).2 hn⟩

/-- Whatever modules of the library a program imports, in whatever order and however often, every import succeeds; and in the end just those are there
that were asked for and those that they need. -/
theorem C79_any_order (hl : ∀ m ∈ l, m ∈ library) (hn : 42 ≤ n) :
    (∀ e ∈ (imports (python false) n l World.fresh).1, e = none) ∧
    ∀ k, ((imports (python false) n l World.fresh).2.modules k).isSome = true ↔ ∃ m ∈ l, Needs (python false) m k := by
  obtain ⟨h1, _, h3⟩ := imports_ok python_fits l (ready hl hn) World.fresh fresh_inv
  refine ⟨fun e he => ?_, fun k => ?_⟩
  · rw [h1, List.mem_map] at he
    obtain ⟨_, _, rfl⟩ := he
    rfl
  · rw [h3]
    exact ⟨fun h => h.elim (fun h => by cases h) id, .inr⟩

/-- The order does not matter, nor how often a module is imported: in the end the memory is the same. -/
theorem C79_order_free (hl : ∀ m ∈ l, m ∈ library) (hl' : ∀ m ∈ l', m ∈ library) (hn : 42 ≤ n) (hn' : 42 ≤ n') (hs : ∀ m, m ∈ l ↔ m ∈ l') :
    (imports (python false) n l World.fresh).2.modules = (imports (python false) n' l' World.fresh).2.modules := by
  obtain ⟨_, h2, _⟩ := imports_ok python_fits l (ready hl hn) World.fresh fresh_inv
  obtain ⟨_, h2', _⟩ := imports_ok python_fits l' (ready hl' hn') World.fresh fresh_inv
  refine h2.same (library_unique false) h2' fun k => ?_
  rw [(C79_any_order hl hn).2, (C79_any_order hl' hn').2]
  constructor <;> rintro ⟨m, hm, h⟩
  · exact ⟨m, (hs m).1 hm, h⟩
  · exact ⟨m, (hs m).2 hm, h⟩

/-- The statements of a module are run once, however often it is imported, and only those of modules that are needed. -/
theorem C79_run_once (hl : ∀ m ∈ l, m ∈ library) (hn : 42 ≤ n) :
    (imports (python false) n l World.fresh).2.ran.Nodup ∧ ∀ k, k ∈ (imports (python false) n l World.fresh).2.ran ↔ ∃ m ∈ l, Needs (python false) m k := by
  obtain ⟨_, h2, _⟩ := imports_ok python_fits l (ready hl hn) World.fresh fresh_inv
  exact ⟨h2.once, fun k => by rw [h2.ran, (C79_any_order hl hn).2]⟩

/-- A module has the classes and functions that its text defines, which are its own. -/
theorem C79_classes (hl : ∀ m ∈ l, m ∈ library) (hn : 42 ≤ n) {d : Module} (hd : d ∈ Source.modules)
    (hm : ((imports (python false) n l World.fresh).2.modules d.name).isSome = true) {x : Name} {uses : List (Name × Path)} {members : List Path}
    (hx : Top.define x uses members ∈ d.body) :
    ∃ ns, (imports (python false) n l World.fresh).2.modules d.name = some ns ∧ ns x = some (.made d.name x) := by
  obtain ⟨_, h2, _⟩ := imports_ok python_fits l (ready hl hn) World.fresh fresh_inv
  have hb : d.body ≠ [] := by rintro h; rw [h] at hx; cases hx
  refine ⟨_, h2.text (library_unique false d hd) hb hm, ?_⟩
  have hall : Source.modules.all (fun d => d.body.all fun s => match s with
      | .define x _ _ => (d.names (python false)).lookup x == some (.made d.name x) | _ => true) = true := by decide +kernel
  exact beq_iff_eq.1 (List.all_eq_true.1 (List.all_eq_true.1 hall d hd) _ hx)

/-- A package (a module with no statements) has those of its modules that have been imported, and nothing else. -/
theorem C79_packages (hl : ∀ m ∈ l, m ∈ library) (hn : 42 ≤ n) {d : Module} (hd : d ∈ Source.modules) (hb : d.body = [])
    (hm : ((imports (python false) n l World.fresh).2.modules d.name).isSome = true) :
    ∃ ns, (imports (python false) n l World.fresh).2.modules d.name = some ns ∧ ∀ x r, ns x = some r ↔
      ∃ k ∈ Source.modules, k.parent = some (d.name, x) ∧ r = .module k.name ∧ ((imports (python false) n l World.fresh).2.modules k.name).isSome = true := by
  obtain ⟨_, h2, _⟩ := imports_ok python_fits l (ready hl hn) World.fresh fresh_inv
  refine ⟨_, h2.package (library_unique false) (library_unique false d hd) hb hm, fun x r => ?_⟩
  constructor
  · intro h
    cases hs : (python false).sub d.name x with
    | none => rw [hs] at h; cases h
    | some k =>
      rw [hs] at h
      dsimp only at h
      split at h
      · rename_i hk
        injection h with h
        exact ⟨k, (sub_some hs).1, (sub_some hs).2, h.symm, hk⟩
      · cases h
  · rintro ⟨k, hk, hp, rfl, he⟩
    have h := List.all_eq_true.1 python_sub k hk
    rw [hp] at h
    dsimp only at h
    cases hs : (python false).sub d.name x with
    | none => rw [hs] at h; cases h
    | some j =>
      rw [hs] at h
      have hj : j.name = k.name := beq_iff_eq.1 h
      dsimp only
      rw [hj, if_pos he]

/-- The package of ETSI's decoders, after one of them has been imported. -/
example := C79_packages (l := [n!"okdmr.kaitai.etsi.dmr_csbk"]) (n := 42) (d := Source.okdmr_kaitai_etsi) (by decide +kernel) (by decide) (List.mem_of_getElem? (i := 2) rfl) rfl
  (((C79_any_order (by decide +kernel) (by decide)).2 _).2 ⟨_, List.mem_singleton.2 rfl,
    .step (k := n!"okdmr.kaitai.etsi") (d := Source.okdmr_kaitai_etsi_dmr_csbk) rfl (by decide +kernel) (.refl _)⟩)

/-- What a module takes from another by `from p import x` is the very object that the other has: a class is the same in every module. -/
theorem C79_shared (hl : ∀ m ∈ l, m ∈ library) (hn : 42 ≤ n) {d : Module} (hd : d ∈ Source.modules)
    (hm : ((imports (python false) n l World.fresh).2.modules d.name).isSome = true) {p x : Name} (hp : p ∈ library) (hx : Top.from_ p x ∈ d.body) :
    ∃ ns nsp r, (imports (python false) n l World.fresh).2.modules d.name = some ns ∧ (imports (python false) n l World.fresh).2.modules p = some nsp ∧
      ns x = some r ∧ nsp x = some r := by
  obtain ⟨_, h2, _⟩ := imports_ok python_fits l (ready hl hn) World.fresh fresh_inv
  have hf := library_unique false d hd
  have hb : d.body ≠ [] := by rintro h; rw [h] at hx; cases hx
  have h := List.all_eq_true.1 (List.all_eq_true.1 python_from d hd) _ hx
  obtain ⟨dp, hdp⟩ := Option.isSome_iff_exists.1 (library_find hp false).1
  dsimp only at h
  rw [hdp] at h
  dsimp only at h
  rw [Bool.and_eq_true] at h
  have he : (python false).external.lookup p = none := by simpa using h.1
  have huse : ∀ k ∈ uses (python false) (.from_ p x), ((imports (python false) n l World.fresh).2.modules k).isSome = true := fun k hk =>
    (h2.deps d.name d hm (by simp) hf k (List.mem_append_right _ (List.mem_flatMap.2 ⟨_, hx, hk⟩))).1
  rw [uses, he] at huse
  have lp := huse p (by simp)
  have htext := h2.text hf hb hm
  cases hs : (python false).sub p x with
  | some k =>
    rw [hs] at huse h
    have lk := huse k.name (by simp)
    replace h := h.2
    dsimp only at h
    rw [Bool.and_eq_true] at h
    refine ⟨_, _, .module k.name, htext, h2.package (library_unique false) hdp (List.isEmpty_iff.1 h.1) lp, beq_iff_eq.1 h.2, ?_⟩
    rw [hs]
    dsimp only
    rw [if_pos lk]
  | none =>
    rw [hs] at h
    replace h := h.2
    dsimp only at h
    rw [Bool.and_eq_true, Bool.and_eq_true] at h
    have hbp : dp.body ≠ [] := by
      intro hbp
      have := h.1.1
      rw [hbp] at this
      cases this
    exact ⟨_, _, .made p x, htext, h2.text hdp hbp lp, beq_iff_eq.1 h.1.2, beq_iff_eq.1 h.2⟩

/-- `ProtocolDebug`, in `debug_hytera` and in `debug`. -/
example := C79_shared (l := [n!"okdmr.kaitai.tools.debug_hytera"]) (n := 42) (d := Source.okdmr_kaitai_tools_debug_hytera) (p := n!"okdmr.kaitai.tools.debug")
  (x := n!"ProtocolDebug") (by decide +kernel) (by decide) (List.mem_of_getElem? (i := 40) rfl)
  (((C79_any_order (by decide +kernel) (by decide)).2 _).2 ⟨_, List.mem_singleton.2 rfl, .refl _⟩) (by decide +kernel) (List.mem_of_getElem? (i := 11) rfl)

/-- The names that the functions of a module look up when they are called, in whatever order the modules were imported, are there: no call ends in a
`NameError`, nor is a class, enumeration or function missing in the class or module that it is taken from. -/
theorem C79_names_found (hl : ∀ m ∈ l, m ∈ library) (hn : 42 ≤ n) {d : Module} (hd : d ∈ Source.modules)
    (hm : ((imports (python false) n l World.fresh).2.modules d.name).isSome = true) :
    ∀ p ∈ d.later, found (python false) (imports (python false) n l World.fresh).2 d.name p = true := by
  obtain ⟨_, h2, _⟩ := imports_ok python_fits l (ready hl hn) World.fresh fresh_inv
  have h := List.all_eq_true.1 python_later d hd
  rw [Bool.and_eq_true, Bool.or_eq_true] at h
  by_cases hb : d.body = []
  · intro p hp
    rcases h.1 with h | h
    · rw [hb] at h; cases h
    · rw [List.isEmpty_iff.1 h] at hp; cases hp
  · exact h2.later (library_unique false d hd) hb hm h.2

/-- With a kaitaistruct whose API is older than 0.9, no decoder (a module with `import kaitaistruct`) can be imported: whatever was tried before, the
import raises, and no half-made module is left. -/
theorem C79_old_api {d : Module} (hd : d ∈ Source.modules) (hi : Top.import_ n!"kaitaistruct" ∈ d.body) (k : Nat) :
    (load (python true) k d.name (imports (python true) n l World.fresh).2).1 ≠ none ∧
    (load (python true) k d.name (imports (python true) n l World.fresh).2).2.modules d.name = none := by
  have hf := library_unique true d hd
  have hall : Source.modules.all (fun d => d.body.all (fun s => match s with | .import_ n => n != n!"kaitaistruct" | _ => true) ||
      d.body.any fun s => match s with | .check => true | _ => false) = true := by decide +kernel
  have hc : Top.check ∈ d.body := by
    have h := List.all_eq_true.1 hall d hd
    rw [Bool.or_eq_true] at h
    rcases h with h | h
    · have := List.all_eq_true.1 h _ hi
      simp at this
    · obtain ⟨s, hs, h⟩ := List.any_eq_true.1 h
      cases s with
      | check => exact hs
      | _ => cases h
  have h0 : Without (python true) [] (imports (python true) n l World.fresh).2 := imports_without rfl n l World.fresh fun m d _ _ _ => rfl
  exact ⟨load_old rfl hf hc k _ (h0 _ d hf hc (by simp)), load_without rfl k [] _ _ h0 _ d hf hc (by simp)⟩

/-- There are 42 modules, with 28 decoders, which check. -/
example : library.length = 42 ∧ (Source.modules.filter fun d => d.body.any fun s => match s with | .check => true | _ => false).length = 28 := by decide +kernel

/-- Importing a decoder of Hytera's imports the packages and the decoders that it uses; importing one of them afterwards does nothing. -/
example : (imports (python false) 42 [n!"okdmr.kaitai.hytera.text_message_protocol", n!"okdmr.kaitai.hytera.radio_ip"] World.fresh).2.ran =
    [n!"okdmr", n!"okdmr.kaitai", n!"okdmr.kaitai.hytera", n!"okdmr.kaitai.hytera.text_message_protocol",
     n!"okdmr.kaitai.hytera.radio_ip"] := by decide +kernel

/-- With the old API, the check raises. -/
example : (load (python true) 42 n!"okdmr.kaitai.etsi.dmr_csbk" World.fresh).1 = some .version := by decide +kernel

end Dmr.Py.Imports
