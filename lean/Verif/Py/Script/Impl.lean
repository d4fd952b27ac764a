import Verif.Py.Script.Tools
/-
`ProtocolDebug._impl`, and the commands.
-/

set_option autoImplicit false

namespace Dmr.Script

open Py (Distinct library State)
open Tools

theorem static_eq (n : Nat) (cls m : String) (d : Function) (h : scripts.method m scripts.classes.length cls = some d) (args : List V) (kwargs : List (String × V)) :
    (calls scripts (n + 1)).static cls m args kwargs = d.call (calls scripts n) args kwargs := by
  simp only [calls, h]; rfl

theorem m_args : scripts.method "_args" scripts.classes.length "debug.ProtocolDebug" = some Source.debug_ProtocolDebug__args := by rfl

/-- The values of the words. -/
def wordValues (l : List PyStr) : List V := l.map fun s => .pv (.str s)

theorem texts_values : ∀ l : List PyStr, texts (wordValues l) = some l
  | [] => rfl
  | s :: l => by
    show (texts (wordValues l)).map (s :: ·) = _
    rw [texts_values l]; rfl

/-- `ProtocolDebug._args(protocol=protocol)` -/
theorem run_args (n : Nat) (p : PyStr) (w : World) :
    ((calls scripts (n + 1)).static "debug.ProtocolDebug" "_args" [] [("protocol", .pv (.str p))]).run w =
      .ok (.parser w.parsers.length) { w with parsers := w.parsers ++ [["hex"]] } := by
  rw [static_eq _ _ _ _ m_args]
  have e1 : ∀ s, builtin (calls scripts n) "ArgumentParser" [] [("description", .pv (.str s))] = newParser := fun _ => rfl
  have e2 : newParser.run w = .ok (.parser w.parsers.length) { w with parsers := w.parsers ++ [[]] } := rfl
  have e3 : ∀ s, formatted [.pv (.str s), .pv (.str p)] = some (s ++ p) := fun s => by simp [formatted]
  have e4 : ∀ (c : Calls) (i : Nat) (s : PyStr), invoke c (.parser i) "add_argument" [.pv (.str "hex".toList)]
      [("type", .global "str"), ("nargs", .pv (.str "+".toList)), ("help", .pv (.str s))] = fun w =>
    match w.parsers[i]? with
    | some names => .ok (.pv .none) { w with parsers := w.parsers.set i (names ++ [String.ofList "hex".toList]) }
    | none => .stuck := fun _ _ _ => rfl
  script_run [Source.debug_ProtocolDebug__args, e1, e2, e3, e4, List.filter, bne_self_eq_false]
  simp [S.run, Out.bind]

/-- The words that are used. -/
def usedWords (argv : List PyStr) (arguments : Option (List PyStr)) : List PyStr :=
  match arguments with
  | none => argv
  | some [] => argv
  | some l => l

/-- The argument `arguments`. -/
def argumentsValue : Option (List PyStr) → V
  | none => .pv .none
  | some l => .list (wordValues l)

theorem run_words (env : Env) (n : Nat) (w : World) (name : PyStr) (argv : List PyStr) (arguments : Option (List PyStr)) (ha : env.lookup "arguments" = some (argumentsValue arguments))
    (hw : w.argv = name :: argv) :
    (eval (calls scripts n) env (.ifExp (.or (.not (.name "arguments")) (.not (.call (.global "len") [.name "arguments"] []))) (.slice (.attr (.global "sys") "argv") (.int 1) .none .none) (.name "arguments"))).run w =
      .ok (.list (wordValues (usedWords argv arguments))) w := by
  have e1 : (eval (calls scripts n) env (.slice (.attr (.global "sys") "argv") (.int 1) .none .none)).run w = .ok (.list (wordValues argv)) w := by
    have : (getattr (calls scripts n) (.global "sys") "argv").run w = .ok (.list (wordValues w.argv)) w := rfl
    have h2 : sliceOf (.pv (.int 1)) (.pv .none) (.pv .none) (.list (wordValues w.argv)) = pure (.list (wordValues argv)) := by
      show (do return .list (← defined (sliced (wordValues w.argv) (.pv (.int ((1 : Nat) : Int))) (.pv .none) (.pv .none))) : S V) = _
      rw [sliced_from, hw]
      rfl
    script_run [this, h2]
  have e2 : (eval (calls scripts n) env (.name "arguments")).run w = .ok (argumentsValue arguments) w := by
    script_run [ha]
  have e3 : ∀ b, (eval (calls scripts n) env (.or (.not (.name "arguments")) (.not (.call (.global "len") [.name "arguments"] [])))).run w = .ok (.pv (.bool b)) w →
      (eval (calls scripts n) env (.ifExp (.or (.not (.name "arguments")) (.not (.call (.global "len") [.name "arguments"] []))) (.slice (.attr (.global "sys") "argv") (.int 1) .none .none) (.name "arguments"))).run w =
        if b then .ok (.list (wordValues argv)) w else .ok (argumentsValue arguments) w := by
    intro b hb
    rw [eval.eq_def]
    simp only [run_bind, hb, bind_ok, truth_bool, run_pure, run_ite, e1, e2]
  have n1 : ∀ b, truth (argumentsValue arguments) = pure b → (eval (calls scripts n) env (.not (.name "arguments"))).run w = .ok (.pv (.bool (!b))) w := by
    intro b hb
    script_run [ha, hb]
  cases arguments with
  | none =>
    rw [e3 true]
    · rfl
    · rw [eval, run_bind, n1 false rfl]; rfl
  | some l =>
    cases l with
    | nil =>
      rw [e3 true]
      · rfl
      · rw [eval, run_bind, n1 false rfl]; rfl
    | cons s rest =>
      have e4 : (eval (calls scripts n) env (.not (.call (.global "len") [.name "arguments"] []))).run w = .ok (.pv (.bool false)) w := by
        have : ∀ c l, builtin c "len" [.list l] [] = pure (.pv (.int (l.length : Int))) := fun _ _ => rfl
        have h0 : truth (.pv (.int ((wordValues (s :: rest)).length : Int))) = pure true := by
          show (pure (((wordValues (s :: rest)).length : Int) != 0) : S Bool) = _
          congr 1
        script_run [ha, argumentsValue, this, h0, Bool.not_true]
      rw [e3 false]
      · rfl
      · rw [eval, run_bind, n1 true rfl]
        exact e4

/-- `parse_args(words)` without words. -/
theorem run_no_words (c : Calls) (i : Nat) (w : World) (hp : w.parsers[i]? = some ["hex"]) :
    (invoke c (.parser i) "parse_args" [.list (wordValues [])] []).run w = .exit w := by
  show (match w.parsers[i]?, texts (wordValues []) with
    | some names, some words => (parseArgs names words).run w
    | _, _ => .stuck : Out V) = _
  rw [hp]
  rfl

/-- `parse_args(words)` with words. -/
theorem run_parse (c : Calls) (i : Nat) (w : World) (hp : w.parsers[i]? = some ["hex"]) (s : PyStr) (rest : List PyStr) (hd : ∀ u ∈ s :: rest, u.head? ≠ some '-') :
    (invoke c (.parser i) "parse_args" [.list (wordValues (s :: rest))] []).run w = .ok (.namespace [("hex", .list (wordValues (s :: rest)))]) w := by
  show (match w.parsers[i]?, texts (wordValues (s :: rest)) with
    | some names, some words => (parseArgs names words).run w
    | _, _ => .stuck : Out V) = _
  rw [hp, texts_values]
  dsimp only
  unfold parseArgs
  have : ((s :: rest).any fun s => s.head? == some '-') = false := by
    rw [List.any_eq_false]
    intro u hu
    simpa using hd u hu
  dsimp only
  rw [this]
  rfl

theorem debugImpl_eq (t : Tool) (argv : List PyStr) (arguments : Option (List PyStr)) : debugImpl t argv arguments =
    match usedWords argv arguments with
    | [] => ([], .usage)
    | s :: rest =>
      match debugLoop t (s :: rest) with
      | (out, .ok ()) => (out, .done)
      | (out, .error e) => (out, .exception e) := by
  unfold debugImpl usedWords
  cases arguments with
  | none => cases argv <;> rfl
  | some l =>
    cases l with
    | nil => cases argv <;> rfl
    | cons => rfl

/-- The arguments of `_impl`, by name. -/
def implArguments (p : PyStr) (t : Tool) (arguments : Option (List PyStr)) : List (String × V) :=
  [("protocol", .pv (.str p)), ("kaitai", .cls (className t))] ++
    match arguments with
    | none => []
    | some l => [("arguments", .list (wordValues l))]

theorem bind_impl (p : PyStr) (t : Tool) (arguments : Option (List PyStr)) :
    bindArgs Source.debug_ProtocolDebug__impl.params [] (implArguments p t arguments) =
      some [("protocol", .pv (.str p)), ("kaitai", .cls (className t)), ("arguments", argumentsValue arguments)] := by
  cases arguments <;> rfl

/-- `args = ProtocolDebug._args(protocol=protocol).parse_args(sys.argv[1:] if (not arguments or not len(arguments)) else arguments)` -/
def parseStmt : Stmt :=
  .assign (.name "args") (.call (.attr (.call (.attr (.script "debug.ProtocolDebug") "_args") [] [("protocol", .name "protocol")]) "parse_args")
    [.ifExp (.or (.not (.name "arguments")) (.not (.call (.global "len") [.name "arguments"] []))) (.slice (.attr (.global "sys") "argv") (.int 1) .none .none) (.name "arguments")] [])

/-- `for hex_msg in args.hex` -/
def loopStmt : Stmt := .for_ "hex_msg" (.attr (.name "args") "hex") loopBody

theorem impl_body : Source.debug_ProtocolDebug__impl.body = [parseStmt, loopStmt] := rfl

/-- `ProtocolDebug._impl`. -/
theorem run_impl (t : Tool) (p name : PyStr) (argv : List PyStr) (arguments : Option (List PyStr)) (hd : ∀ u ∈ usedWords argv arguments, u.head? ≠ some '-')
    (σ : State) (hσ : Distinct σ.heap) : ∃ N, ∀ n, N ≤ n → ∀ (w : World), w.memory = σ → w.argv = name :: argv →
      ((Source.debug_ProtocolDebug__impl.call (calls scripts n) [] (implArguments p t arguments)).run w).ending =
      some (w.written ++ (debugImpl t argv arguments).1, (debugImpl t argv arguments).2) := by
  obtain ⟨σ', env', N, hN⟩ := loop_does t (usedWords argv arguments)
    [("protocol", .pv (.str p)), ("kaitai", .cls (className t)), ("arguments", argumentsValue arguments),
      ("args", .namespace [("hex", .list (wordValues (usedWords argv arguments)))])] σ rfl hσ
  refine ⟨N + 1, fun n hn w hw hargv => ?_⟩
  obtain ⟨m, rfl⟩ : ∃ m, n = m + 1 := ⟨n - 1, by omega⟩
  have e1 := run_args m p w
  have e2 := run_words [("protocol", .pv (.str p)), ("kaitai", .cls (className t)), ("arguments", argumentsValue arguments)] (m + 1)
    { w with parsers := w.parsers ++ [["hex"]] } name argv arguments rfl hargv
  have hp : (w.parsers ++ [["hex"]])[w.parsers.length]? = some ["hex"] := by simp
  have e3 : ∀ c n m a k, invoke c (.script n) m a k = c.static n m a k := fun _ _ _ _ _ => rfl
  have e4 : (exec (calls scripts (m + 1)) parseStmt [("protocol", .pv (.str p)), ("kaitai", .cls (className t)), ("arguments", argumentsValue arguments)]).run w =
      ((invoke (calls scripts (m + 1)) (.parser w.parsers.length) "parse_args" [.list (wordValues (usedWords argv arguments))] []).run
        { w with parsers := w.parsers ++ [["hex"]] }).bind fun v w' =>
          .ok (.next [("protocol", .pv (.str p)), ("kaitai", .cls (className t)), ("arguments", argumentsValue arguments), ("args", v)]) w' := by
    rw [parseStmt, exec, run_bind]
    · have e5 : (eval (calls scripts (m + 1)) [("protocol", .pv (.str p)), ("kaitai", .cls (className t)), ("arguments", argumentsValue arguments)]
        (.call (.attr (.script "debug.ProtocolDebug") "_args") [] [("protocol", .name "protocol")])).run w =
          .ok (.parser w.parsers.length) { w with parsers := w.parsers ++ [["hex"]] } := by
        script_run [e3, e1]
      rw [eval, run_bind, e5, bind_ok, run_bind, evals, run_bind, e2]
      · script_run []
    · intro ts h; cases h
  rw [Function.call, run_bind, bind_impl, run_defined_some, bind_ok, run_bind, impl_body, execs, run_bind, e4, debugImpl_eq]
  cases hu : usedWords argv arguments with
  | nil =>
    rw [run_no_words _ _ _ hp]
    simp only [List.append_nil]
    rfl
  | cons s rest =>
    rw [hu] at hd hN
    rw [run_parse _ _ _ hp s rest hd, bind_ok, bind_ok]
    dsimp only
    rw [execs, run_bind, loopStmt, exec, run_bind]
    obtain ⟨w', -, b2, b3⟩ := hN (m + 1) (by omega) { w with parsers := w.parsers ++ [["hex"]] } hw
    have e6 : ∀ env : Env, env.lookup "args" = some (.namespace [("hex", .list (wordValues (s :: rest)))]) →
        (eval (calls scripts (m + 1)) env (.attr (.name "args") "hex")).run { w with parsers := w.parsers ++ [["hex"]] } =
          .ok (.list (wordValues (s :: rest))) { w with parsers := w.parsers ++ [["hex"]] } := by
      intro env he
      have : ∀ c l, getattr c (.namespace l) "hex" = defined (l.lookup "hex") := fun _ _ => rfl
      script_run [he, this]
    rw [e6 _ rfl, bind_ok]
    have b3' : (forLoop (fun env => execs (calls scripts (m + 1)) loopBody env) "hex_msg" (wordValues (s :: rest))
      [("protocol", .pv (.str p)), ("kaitai", .cls (className t)), ("arguments", argumentsValue arguments),
        ("args", .namespace [("hex", .list (wordValues (s :: rest)))])]).run { w with parsers := w.parsers ++ [["hex"]] } = _ := b3
    dsimp only
    rw [b3']
    rcases hl : debugLoop t (s :: rest) with ⟨out, e | u⟩
    · rw [hl] at b2
      show some (w'.written, Ending.exception e) = _
      rw [b2]
    · rw [hl] at b2
      show some (w'.written, Ending.done) = _
      rw [b2]

end Dmr.Script
