import Verif.Py.Script.Utils
import Verif.Py.Spec
import Verif.Py.Distinct
/-
Running okdmr/kaitai/tools/prettyprint.py.
-/

set_option autoImplicit false

namespace Dmr.Script

open Tools
open Py (Shows ShowsItems ShowsAttrs Distinct)

theorem fn_prettyprint : scripts.functions.lookup "prettyprint.prettyprint" = some Source.prettyprint_prettyprint := by rfl
theorem fn_array : scripts.functions.lookup "prettyprint._array_prettyprint" = some Source.prettyprint__array_prettyprint := by rfl
theorem fn_pretty : scripts.functions.lookup "prettyprint._prettyprint" = some Source.prettyprint__prettyprint := by rfl

theorem lookup_upsert (x y : String) (v : V) : ∀ l : Env, (upsert x v l).lookup y = if y = x then some v else l.lookup y
  | [] => by rw [upsert, Py.lookup_cons]
  | (z, w) :: l => by
    rw [upsert]
    by_cases h : x = z
    · subst h
      rw [if_pos rfl, Py.lookup_cons, Py.lookup_cons]
      by_cases h' : y = x <;> simp [h']
    · rw [if_neg h, Py.lookup_cons, Py.lookup_cons, lookup_upsert x y v l]
      by_cases h' : y = x
      · subst h'; simp [h]
      · simp [h']

theorem upsert_fresh (x : String) (v : V) : ∀ l : Env, x ∉ l.map Prod.fst → upsert x v l = l ++ [(x, v)]
  | [], _ => rfl
  | (y, w) :: l, h => by
    rw [List.map_cons, List.mem_cons, not_or] at h
    rw [upsert, if_neg h.1, upsert_fresh x v l h.2]
    rfl

/-- The items of a dictionary. -/
def items (l : List (String × V)) : List V := l.map fun a => .tuple [.pv (.str a.1.toList), a.2]

theorem same_str (s t : String) : same (.pv (.str s.toList)) (.pv (.str t.toList)) = pure (decide (s = t)) := by
  show pure (s.toList == t.toList) = _
  congr 1
  by_cases h : s = t
  · subst h; simp
  · rw [decide_eq_false h, beq_eq_false_iff_ne]
    exact fun e => h (String.toList_inj.1 e)

theorem run_contains (s : String) (w : World) : ∀ l : List String,
    (contains (.pv (.str s.toList)) (l.map fun t => .pv (.str t.toList))).run w = .ok (decide (s ∈ l)) w
  | [] => rfl
  | t :: l => by
    rw [List.map_cons, contains, run_bind, same_str, run_pure, bind_ok]
    by_cases h : s = t
    · subst h; simp [run_pure]
    · rw [decide_eq_false h]
      simp only [Bool.false_eq_true, if_false, run_contains s w l, List.mem_cons, h, false_or]

/-- The condition of the first comprehension. -/
theorem run_cond (c : Calls) (env : Env) (s : String) (h : env.lookup "key" = some (.pv (.str s.toList))) (w : World) :
    (do truth (← eval c env (.cmp .notIn (.name "key") (.list [.str "_io", .str "_parent", .str "_root", .str "_debug"]))) : S Bool).run w =
      .ok (!hiddenAttributes.contains s) w := by
  have := run_contains s w ["_io", "_parent", "_root", "_debug"]
  script_run [h, CmpOp.apply]
  rw [show ([V.pv (.str "_io".toList), V.pv (.str "_parent".toList), V.pv (.str "_root".toList), V.pv (.str "_debug".toList)]) =
    ["_io", "_parent", "_root", "_debug"].map fun t => .pv (.str t.toList) from rfl, this]
  script_run []
  congr 2
  rw [hiddenAttributes, List.contains_eq_mem]

/-- `{key: value for (key, value) in d.items() if c}` -/
theorem comp_filter (w : World) (cond : Env → S Bool) (p : String → Bool) (c : Calls)
    (hc : ∀ (env : Env) s, env.lookup "key" = some (.pv (.str s.toList)) → (cond env).run w = .ok (p s) w) (env : Env) :
    ∀ (l d : List (String × V)), ((d ++ l).map Prod.fst).Nodup →
      (comprehension (fun e => eval c e (.name "key")) (fun e => eval c e (.name "value")) cond "key" "value" env (items l) d).run w =
        .ok (d ++ l.filter fun a => p a.1) w
  | [], d, _ => by
    rw [items, List.map_nil, comprehension, List.filter_nil, List.append_nil]; rfl
  | (x, v) :: l, d, hn => by
    have hx : x ∉ d.map Prod.fst := by
      rw [List.map_append, List.map_cons, List.nodup_append] at hn
      exact fun h => hn.2.2 x h x List.mem_cons_self rfl
    have h1 : ∀ k : V, (upsert "value" v (upsert "key" k env)).lookup "key" = some k := by
      intro k; rw [lookup_upsert, lookup_upsert]; simp
    have h2 : ∀ k : V, (upsert "value" v (upsert "key" k env)).lookup "value" = some v := by
      intro k; rw [lookup_upsert]; simp
    rw [items, List.map_cons, comprehension, run_bind]
    dsimp only
    rw [hc _ x (h1 _), bind_ok]
    have ih := comp_filter w cond p c hc env l
    cases hp : p x with
    | false =>
      rw [List.filter_cons, hp]
      simp only [Bool.false_eq_true, if_false]
      exact ih d (by
        refine hn.sublist ?_
        simp)
    | true =>
      rw [List.filter_cons, hp]
      simp only [if_true, run_bind, eval, h1, h2, run_defined_some, bind_ok, String.ofList_toList, upsert_fresh x v d hx]
      rw [show d ++ (x, v) :: l.filter (fun a => p a.1) = (d ++ [(x, v)]) ++ l.filter (fun a => p a.1) by simp]
      exact ih (d ++ [(x, v)]) (by simpa using hn)

/-- The conditional expression in both functions. -/
def shown (x : String) : Expr :=
  .ifExp (.call (.global "isinstance") [.name x, .global "KaitaiStruct"] []) (.call (.func "prettyprint._prettyprint") [.name x] [])
    (.ifExp (.call (.global "isinstance") [.name x, .global "list"] []) (.call (.func "prettyprint._array_prettyprint") [.name x] []) (.name x))

theorem array_source : Source.prettyprint__array_prettyprint =
    { params := [("data", none)], body := [.return_ (.call (.global "list") [.call (.global "map") [.lam "x" (shown "x"), .name "data"] []] [])] } := rfl

theorem pretty_source : Source.prettyprint__prettyprint =
    { params := [("data", none)],
      body := [.assign (.name "acceptable_items") (.dictComp (.name "key") (.name "value") "key" "value" (.call (.attr (.attr (.name "data") "__dict__") "items") [] [])
          (.cmp .notIn (.name "key") (.list [.str "_io", .str "_parent", .str "_root", .str "_debug"]))),
        .return_ (.dictComp (.name "key") (shown "value") "key" "value" (.call (.attr (.name "acceptable_items") "items") [] []) (.bool true))] } := rfl

/-- Attributes with their values. -/
def lifted (attrs : List (String × Py.Val)) : List (String × V) := attrs.map fun a => (a.1, lift a.2)

/-- What is shown of a value: in the memory `h`, for any bound that is large enough. -/
def Prints (h : List Py.Obj) (x : V) (v : PyVal) : Prop :=
  ∃ y N, freeze y = some (prettyValue v) ∧ ∀ n, N ≤ n → ∀ (w : World), w.memory.heap = h → ∀ (name : String) (env : Env), env.lookup name = some x →
    (eval (calls scripts n) env (shown name)).run w = .ok y w

/-- Of the items of a list. -/
def PrintsItems (h : List Py.Obj) (xs : List V) (vs : List PyVal) : Prop :=
  ∃ ys N, freezeAll ys = some (prettyItems vs) ∧ ∀ n, N ≤ n → ∀ (w : World), w.memory.heap = h → ∀ env : Env,
    (mapItems (fun v => eval (calls scripts n) (upsert "x" v env) (shown "x")) xs).run w = .ok ys w

/-- Of the attributes of an object that are not hidden. -/
def PrintsAttrs (h : List Py.Obj) (xs : List (String × V)) (vs : List (String × PyVal)) : Prop :=
  ∃ ys N, freezeItems ys = some (prettyAttrs vs) ∧ ∀ n, N ≤ n → ∀ (w : World), w.memory.heap = h → ∀ (env : Env) (d : List (String × V)),
    ((d ++ xs).map Prod.fst).Nodup →
    (comprehension (fun e => eval (calls scripts n) e (.name "key")) (fun e => eval (calls scripts n) e (shown "value"))
      (fun e => do truth (← eval (calls scripts n) e (.bool true))) "key" "value" env (items (xs.filter fun a => !hiddenAttributes.contains a.1)) d).run w =
      .ok (d ++ ys) w

theorem prints_plain (h : List Py.Obj) (v : PyVal) (struct : ∀ cls vs, v ≠ .struct cls vs) (list : ∀ vs, v ≠ .list vs) : Prints h (.pv v) v := by
  refine ⟨.pv v, 0, ?_, fun n _ w _ name env he => ?_⟩
  · rw [freeze]
    cases v <;> first | rfl | exact absurd rfl (struct _ _) | exact absurd rfl (list _)
  · rw [shown]
    script_run [he]
    rw [show builtin (calls scripts n) "isinstance" [.pv v, .global "KaitaiStruct"] [] = pure (.pv (.bool false)) from rfl]
    script_run [he]
    rw [show builtin (calls scripts n) "isinstance" [.pv v, .global "list"] [] = pure (.pv (.bool false)) from rfl]
    script_run []

theorem prints_list {h : List Py.Obj} {xs : List V} {vs : List PyVal} (e : PrintsItems h xs vs) : Prints h (.list xs) (.list vs) := by
  obtain ⟨ys, N, h1, h2⟩ := e
  refine ⟨.list ys, N + 2, by rw [freeze, h1, prettyValue]; rfl, fun n hn w hw name env he => ?_⟩
  obtain ⟨m, rfl⟩ : ∃ m, n = m + 2 := ⟨n - 2, by omega⟩
  rw [shown]
  script_run [he]
  rw [show builtin (calls scripts (m + 2)) "isinstance" [.list xs, .global "KaitaiStruct"] [] = pure (.pv (.bool false)) from rfl]
  script_run [he]
  rw [show builtin (calls scripts (m + 2)) "isinstance" [.list xs, .global "list"] [] = pure (.pv (.bool true)) from rfl]
  script_run [function_eq _ _ _ fn_array, array_source]
  show (((mapItems (fun v => eval (calls scripts m) (upsert "x" v [("data", .list xs)]) (shown "x")) xs).run w).bind _).bind _ = _
  rw [h2 m (by omega) w hw]
  rfl

/-- `_prettyprint(data)` for an object. -/
theorem run_pretty {h : List Py.Obj} (hd : Distinct h) {r : Nat} {cls : String} {attrs : List (String × Py.Val)} {vs : List (String × PyVal)}
    (at_ : h[r]? = some ⟨cls, attrs⟩) (e : PrintsAttrs h (lifted attrs) vs) :
    ∃ ys N, freezeItems ys = some (prettyAttrs vs) ∧ ∀ n, N ≤ n → ∀ (w : World), w.memory.heap = h →
      ((calls scripts n).function "prettyprint._prettyprint" [.obj r] []).run w = .ok (.dict ys) w := by
  obtain ⟨ys, N, h1, h2⟩ := e
  refine ⟨ys, N + 1, h1, fun n hn w hw => ?_⟩
  obtain ⟨m, rfl⟩ : ∃ m, n = m + 1 := ⟨n - 1, by omega⟩
  have hnd := hd _ (List.mem_of_getElem? at_)
  have hnd' : ((lifted attrs).map Prod.fst).Nodup := by
    rw [lifted, List.map_map]; exact hnd
  rw [function_eq _ _ _ fn_pretty, pretty_source]
  script_step []
  set l := lifted attrs with hl
  have hfetch : (decoders (Py.fetch r)).run w = .ok ⟨cls, attrs⟩ w := by
    rw [decoders_ok (σ := w.memory) (a := ⟨cls, attrs⟩)]
    simp only [Py.M.run, Py.fetch, hw, at_]
  have i1 : (eval (calls scripts m) [("data", .obj r)] (.call (.attr (.attr (.name "data") "__dict__") "items") [] [])).run w =
      .ok (.list (items l)) w := by
    script_run [show getattr (calls scripts m) (.obj r) "__dict__" = (do return .dict (lifted (← decoders (Py.fetch r)).attrs)) from rfl, hfetch]
    rfl
  have d1 : (eval (calls scripts m) [("data", .obj r)] (.dictComp (.name "key") (.name "value") "key" "value" (.call (.attr (.attr (.name "data") "__dict__") "items") [] [])
          (.cmp .notIn (.name "key") (.list [.str "_io", .str "_parent", .str "_root", .str "_debug"])))).run w =
      .ok (.dict (l.filter fun a => !hiddenAttributes.contains a.1)) w := by
    rw [eval]
    simp only [run_bind, i1, bind_ok]
    rw [comp_filter w _ (fun s => !hiddenAttributes.contains s) (calls scripts m) (fun env s hs => run_cond _ env s hs w) _ l [] hnd']
    rfl
  rw [d1]
  script_step []
  rw [eval]
  have i2 : (eval (calls scripts m) [("data", .obj r), ("acceptable_items", .dict (l.filter fun a => !hiddenAttributes.contains a.1))]
      (.call (.attr (.name "acceptable_items") "items") [] [])).run w = .ok (.list (items (l.filter fun a => !hiddenAttributes.contains a.1))) w := by
    script_run []
    rfl
  simp only [run_bind, i2, bind_ok]
  rw [h2 m (by omega) w hw _ [] hnd']
  rfl

theorem prints_object {h : List Py.Obj} (hd : Distinct h) {r : Nat} {cls : String} {attrs : List (String × Py.Val)} {vs : List (String × PyVal)}
    (at_ : h[r]? = some ⟨cls, attrs⟩) (e : PrintsAttrs h (lifted attrs) vs) : Prints h (.obj r) (.struct cls vs) := by
  obtain ⟨ys, N, h1, h2⟩ := run_pretty hd at_ e
  refine ⟨.dict ys, N, by rw [freeze, h1, prettyValue]; rfl, fun n hn w hw name env he => ?_⟩
  rw [shown]
  script_run [he]
  rw [show builtin (calls scripts n) "isinstance" [.obj r, .global "KaitaiStruct"] [] = pure (.pv (.bool true)) from rfl]
  script_run [he, h2 n hn w hw]

theorem prints_items_cons {h : List Py.Obj} {x : V} {v : PyVal} {xs : List V} {vs : List PyVal} (e : Prints h x v) (es : PrintsItems h xs vs) :
    PrintsItems h (x :: xs) (v :: vs) := by
  obtain ⟨y, N, h1, h2⟩ := e
  obtain ⟨ys, M, h3, h4⟩ := es
  refine ⟨y :: ys, max N M, by rw [freezeAll, h1, h3, prettyItems], fun n hn w hw env => ?_⟩
  rw [mapItems]
  simp only [run_bind, run_pure, h2 n (by omega) w hw "x" (upsert "x" x env) (by rw [lookup_upsert, if_pos rfl]), bind_ok, h4 n (by omega) w hw env]

theorem prints_attrs_hidden {h : List Py.Obj} {name : String} {x : V} {v : PyVal} {xs : List (String × V)} {vs : List (String × PyVal)}
    (hh : hiddenAttributes.contains name = true) (es : PrintsAttrs h xs vs) : PrintsAttrs h ((name, x) :: xs) ((name, v) :: vs) := by
  obtain ⟨ys, N, h1, h2⟩ := es
  refine ⟨ys, N, by rw [h1, prettyAttrs, if_pos hh], fun n hn w hw env d hd => ?_⟩
  rw [List.filter_cons]
  simp only [hh, Bool.not_true, Bool.false_eq_true, if_false]
  exact h2 n hn w hw env d (hd.sublist (by simp))

theorem prints_attrs_cons {h : List Py.Obj} {name : String} {x : V} {v : PyVal} {xs : List (String × V)} {vs : List (String × PyVal)}
    (hh : hiddenAttributes.contains name = false) (e : Prints h x v) (es : PrintsAttrs h xs vs) : PrintsAttrs h ((name, x) :: xs) ((name, v) :: vs) := by
  obtain ⟨y, N, h1, h2⟩ := e
  obtain ⟨ys, M, h3, h4⟩ := es
  refine ⟨(name, y) :: ys, max N M, by rw [freezeItems, h1, h3, prettyAttrs, if_neg (by rw [hh]; simp)], fun n hn w hw env d hd => ?_⟩
  rw [List.filter_cons]
  have k1 : ∀ k : V, (upsert "value" x (upsert "key" k env)).lookup "key" = some k := by
    intro k; rw [lookup_upsert, lookup_upsert]; simp
  have k2 : ∀ k : V, (upsert "value" x (upsert "key" k env)).lookup "value" = some x := by
    intro k; rw [lookup_upsert]; simp
  have hx : name ∉ d.map Prod.fst := by
    rw [List.map_append, List.map_cons, List.nodup_append] at hd
    exact fun h => hd.2.2 name h name List.mem_cons_self rfl
  have ht : ∀ e : Env, (do truth (← eval (calls scripts n) e (.bool true)) : S Bool).run w = .ok true w := fun _ => rfl
  simp only [hh, Bool.not_false, if_true]
  rw [items, List.map_cons, comprehension, run_bind]
  dsimp only
  rw [ht, bind_ok, if_pos rfl, run_bind, eval, k1, run_defined_some, bind_ok]
  dsimp only
  rw [run_bind, h2 n (by omega) w hw "value" _ (k2 _), bind_ok, String.ofList_toList, upsert_fresh _ _ _ hx]
  rw [show d ++ (name, y) :: ys = (d ++ [(name, y)]) ++ ys by simp]
  exact h4 n (by omega) w hw env (d ++ [(name, y)]) (by simpa using hd)

theorem links_hidden {name : String} (h : name ∈ Py.links) : hiddenAttributes.contains name = true := by
  rw [hiddenAttributes, List.contains_eq_mem]
  simp only [Py.links, List.mem_cons, List.not_mem_nil, or_false] at h
  rcases h with rfl | rfl | rfl <;> decide

/-- Whatever an object is, as a tree, is what is shown of it. -/
theorem shows_prints {h : List Py.Obj} (hd : Distinct h) {x : Py.Val} {v : PyVal} (s : Shows h x v) : Prints h (lift x) v :=
  Shows.rec (motive_1 := fun x v _ => Prints h (lift x) v) (motive_2 := fun xs vs _ => PrintsItems h (liftAll xs) vs)
    (motive_3 := fun xs vs _ => PrintsAttrs h (lifted xs) vs)
    (fun v a b => by rw [lift]; exact prints_plain h v a b)
    (fun _ ih => by rw [lift]; exact prints_list ih)
    (fun at_ _ ih => by rw [lift]; exact prints_object hd at_ ih)
    (⟨[], 0, by rw [freezeAll, prettyItems], fun _ _ _ _ _ => by rw [liftAll, mapItems]; rfl⟩)
    (fun _ _ ih ih' => by rw [liftAll]; exact prints_items_cons ih ih')
    (⟨[], 0, by rw [freezeItems, prettyAttrs], fun _ _ _ _ _ d _ => by
      rw [lifted, List.map_nil, List.filter_nil, items, List.map_nil, comprehension, List.append_nil]; rfl⟩)
    (fun l _ ih => prints_attrs_hidden (links_hidden l) ih)
    (fun {name} _ _ _ _ _ _ _ ih ih' => by
      rw [lifted, List.map_cons]
      cases hh : hiddenAttributes.contains name with
      | true => exact prints_attrs_hidden hh ih'
      | false => exact prints_attrs_cons hh ih ih') s

/-- `prettyprint(data)`. -/
theorem run_prettyprint {h : List Py.Obj} (hd : Distinct h) {r : Nat} {cls : String} {vs : List (String × PyVal)} (s : Shows h (.obj r) (.struct cls vs)) :
    ∃ N, ∀ n, N ≤ n → ∀ (w : World), w.memory.heap = h →
      ((calls scripts n).function "prettyprint.prettyprint" [.obj r] []).run w =
        .ok (.pv .none) { w with written := w.written ++ [.pprint (.dict (prettyAttrs vs))] } := by
  obtain ⟨y, N, h1, h2⟩ := shows_prints hd s
  refine ⟨N + 1, fun n hn w hw => ?_⟩
  obtain ⟨m, rfl⟩ : ∃ m, n = m + 1 := ⟨n - 1, by omega⟩
  have h3 := h2 m (by omega) w hw "x" [("x", .obj r)] (by rw [lift]; rfl)
  rw [shown] at h3
  script_run [] at h3
  rw [show builtin (calls scripts m) "isinstance" [.obj r, .global "KaitaiStruct"] [] = pure (.pv (.bool true)) from rfl] at h3
  script_run [] at h3
  rw [prettyValue] at h1
  rw [function_eq _ _ _ fn_prettyprint]
  script_run [Source.prettyprint_prettyprint, h3]
  rw [show builtin (calls scripts m) "pprint" [y] [("stream", .pv .none)] = (do write (.pprint (← defined (freeze y)))) from rfl, h1]
  rfl

end Dmr.Script
