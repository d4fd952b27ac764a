import Verif.Py.Script.Commands
import Verif.Props.Source
import Verif.Props.Debug
/-
C62: `prettyprint`, `ProtocolDebug._impl` and the commands that the package installs, as they are written (Verif/Py/Script/Source), run by
the interpreter of Verif/Py/Script/Semantics, with the decoders as they are written (Verif/Py/Source).
-/

set_option autoImplicit false

namespace Dmr.Script

open Py (Distinct library State table Reader Shows)
open Tools

/-! ### Printing an object -/

/-- C62: `prettyprint(x)` writes, for whatever object of the decoders, what it is specified to print, and changes nothing. -/
theorem C62_prettyprint (heap : List Py.Obj) (hd : Distinct heap) (r : Nat) (cls : String) (attrs : List (String × PyVal))
    (h : Shows heap (.obj r) (.struct cls attrs)) :
    ∃ items, Printed (.struct cls attrs) (.dict items) ∧ ∃ N, ∀ n, N ≤ n → ∀ (w : World), w.memory.heap = heap →
      ((calls scripts n).function "prettyprint.prettyprint" [.obj r] []).run w =
        .ok (.pv .none) { w with written := w.written ++ [.pprint (.dict items)] } :=
  ⟨_, by have := printed_pretty (.struct cls attrs); rwa [prettyValue] at this, run_prettyprint hd h⟩

/-- `prettyprint(X.from_bytes(b))` -/
def printDecoded (name : String) : Expr :=
  .call (.func "prettyprint.prettyprint") [.call (.attr (.cls name) "from_bytes") [.name "b"] []] []

theorem shows_struct {h : List Py.Obj} {r : Nat} {v : PyVal} (s : Shows h (.obj r) v) : ∃ cls attrs, v = .struct cls attrs := by
  cases s
  exact ⟨_, _, rfl⟩

theorem run_printDecoded (n : Nat) (name : String) (b : Bytes) (w : World) :
    (eval (calls scripts (n + 1)) [("b", .pv (.bytes b))] (printDecoded name)).run w =
      ((decoders (fromBytesRun (n + 1) name b)).run w).bind fun v w' => ((calls scripts (n + 1)).function "prettyprint.prettyprint" [v] []).run w' := by
  have e1 : invoke (calls scripts (n + 1)) (.cls name) "from_bytes" [.pv (.bytes b)] [] = decoders (fromBytesRun (n + 1) name b) := rfl
  obtain ⟨f, hf⟩ : ∃ f, f = (calls scripts (n + 1)).function "prettyprint.prettyprint" := ⟨_, rfl⟩
  rw [← hf]
  script_run [printDecoded, e1, ← hf]

theorem run_decoded {n : Nat} {name : String} {b : Bytes} {v : Py.Val} {σ : State} (h : Py.fromBytes library n name b = .ok v σ) :
    (fromBytesRun n name b).run ⟨[], []⟩ = .ok (lift v) σ := by
  unfold fromBytesRun
  rw [Py.run_bind]
  show (((Py.calls library n).construct name [.io 0] >>= fun v => pure (lift v)) : Py.M V).run ⟨[], [Stream.new b]⟩ = _
  rw [Py.run_bind]
  unfold Py.fromBytes at h
  rw [h]; rfl

theorem run_rejected {n : Nat} {name : String} {b : Bytes} {e : PyErr} {σ : State} (h : Py.fromBytes library n name b = .raise e σ) :
    (fromBytesRun n name b).run ⟨[], []⟩ = .raise e σ := by
  unfold fromBytesRun
  rw [Py.run_bind]
  show (((Py.calls library n).construct name [.io 0] >>= fun v => pure (lift v)) : Py.M V).run ⟨[], [Stream.new b]⟩ = _
  rw [Py.run_bind]
  unfold Py.fromBytes at h
  rw [h]; rfl

/-- C62: `prettyprint(X.from_bytes(b))` writes the attributes of the object, for every class and all bytes that it decodes. -/
theorem C62_print_decoded (name : String) (R : Reader) (hR : (name, some R) ∈ table) (b : Bytes) (x : R.Obj) (s : Stream)
    (h : R.read (Stream.new b) = (.ok x, s)) (argv : List PyStr) :
    ∃ items, Printed (R.toPy x) (.dict items) ∧ ∃ N, ∀ n, N ≤ n →
      ((eval (calls scripts n) [("b", .pv (.bytes b))] (printDecoded name)).run (.start argv)).ending = some ([.pprint (.dict items)], .done) := by
  obtain ⟨heap, h1, h2⟩ := Dmr.C58_returns name R hR b x s h
  obtain ⟨cls, attrs, hx⟩ := shows_struct h2
  rw [hx] at h2 ⊢
  have hd : Distinct heap := by
    have := fromBytes_distinct 13 name b ⟨[], []⟩ (fun o ho => by cases ho)
    rw [run_decoded (h1 13 (by decide))] at this
    exact this
  obtain ⟨items, hp, N, hN⟩ := C62_prettyprint heap hd 0 cls attrs h2
  refine ⟨items, hp, N + 13, fun n hn => ?_⟩
  obtain ⟨m, rfl⟩ : ∃ m, n = m + 1 := ⟨n - 1, by omega⟩
  rw [run_printDecoded, decoders_ok (run_decoded (h1 (m + 1) (by omega))), bind_ok, lift, hN (m + 1) (by omega) _ rfl]
  rfl

/-- C62: and nothing, but raises the same exception, for bytes that it does not decode. -/
theorem C62_print_rejected (name : String) (R : Reader) (hR : (name, some R) ∈ table) (b : Bytes) (e : PyErr) (s : Stream)
    (h : R.read (Stream.new b) = (.error e, s)) (n : Nat) (hn : 13 ≤ n) (argv : List PyStr) :
    ((eval (calls scripts n) [("b", .pv (.bytes b))] (printDecoded name)).run (.start argv)).ending = some ([], .exception e) := by
  obtain ⟨m, rfl⟩ : ∃ m, n = m + 1 := ⟨n - 1, by omega⟩
  rw [run_printDecoded, decoders_raise (run_rejected (Dmr.C58_raises name R hR (m + 1) hn b e s h))]
  rfl

/-- A short acknowledgement of a text message. -/
example := C62_print_decoded "Motorola.TextMessageProtocol" _ (List.mem_of_getElem? (i := 166) rfl) [0, 2, 0x1F, 0] _ _
  (show Motorola.TextMessageProtocol.read (Stream.new [0, 2, 0x1F, 0]) =
    (.ok ⟨2, ⟨false, false, false, true, 15⟩, 0, none, some (.tmsAcknowledgement ⟨none⟩), []⟩, ⟨[0, 2, 0x1F, 0], 4, 0, 0⟩) by decide +kernel)
example (argv : List PyStr) : ((eval (calls scripts 13) [("b", .pv (.bytes [10, 0]))] (printDecoded "Hytera.RadioIp")).run (.start argv)).ending = some ([], .exception .eof) :=
  C62_print_rejected "Hytera.RadioIp" ⟨_, Hytera.RadioIp.read, Hytera.RadioIp.toPy⟩ (List.mem_of_getElem? (i := 51) rfl) [10, 0] .eof _
    (by rfl) 13 (by decide) argv

/-! ### The commands -/

/-- C62: a command that is given words all of which its class decodes writes what is specified for each of them, in this order,
and ends normally. (No word begins with a dash: such a word is for the argument parser.) -/
theorem C62_all_good (tool : Tool) (name : PyStr) (argv : List PyStr) (hne : argv ≠ []) (hd : ∀ u ∈ argv, u.head? ≠ some '-') (outs : List (List Output))
    (h : List.Forall₂ (Accepted tool) argv outs) :
    ∃ N, ∀ n, N ≤ n → runCommand scripts n (commandName tool) (name :: argv) = some (outs.flatten, .done) := by
  have := C46_all_good tool argv none argv rfl hne outs h
  rw [← this]
  exact run_command tool name argv hd

/-- C62: and one that is given others writes what is specified for those before the first of these, and raises its exception. -/
theorem C62_first_bad (tool : Tool) (name : PyStr) (good rest : List PyStr) (bad : PyStr) (hd : ∀ u ∈ good ++ bad :: rest, u.head? ≠ some '-')
    (outs : List (List Output)) (e : PyErr) (h : List.Forall₂ (Accepted tool) good outs) (hb : Rejected tool bad e) :
    ∃ N, ∀ n, N ≤ n → runCommand scripts n (commandName tool) (name :: (good ++ bad :: rest)) = some (outs.flatten, .exception e) := by
  have := C46_first_bad tool (good ++ bad :: rest) none good rest bad rfl outs e h hb
  rw [← this]
  exact run_command tool name _ hd

/-- C62: one that is given no words writes nothing and ends with the message about its usage. -/
theorem C62_usage (tool : Tool) (name : PyStr) :
    ∃ N, ∀ n, N ≤ n → runCommand scripts n (commandName tool) [name] = some ([], .usage) := by
  have := C46_usage tool none rfl
  rw [← this]
  exact run_command tool name [] (by simp)

theorem used_words (argv : List PyStr) (arguments : Option (List PyStr)) :
    usedWords argv arguments = if arguments.getD [] = [] then argv else arguments.getD [] := by
  rcases arguments with _ | (_ | ⟨a, l⟩) <;> rfl

theorem run_static_impl (tool : Tool) (protocol name : PyStr) (argv : List PyStr) (arguments : Option (List PyStr))
    (hd : ∀ u ∈ usedWords argv arguments, u.head? ≠ some '-') (σ : State) (hσ : Distinct σ.heap) :
    ∃ N, ∀ n, N ≤ n → ∀ (w : World), w.memory = σ → w.argv = name :: argv →
      (((calls scripts n).static "debug.ProtocolDebug" "_impl" [] (implArguments protocol tool arguments)).run w).ending =
        some (w.written ++ (debugImpl tool argv arguments).1, (debugImpl tool argv arguments).2) := by
  obtain ⟨N, hN⟩ := run_impl tool protocol name argv arguments hd σ hσ
  refine ⟨N + 1, fun n hn w hw ha => ?_⟩
  obtain ⟨m, rfl⟩ : ∃ m, n = m + 1 := ⟨n - 1, by omega⟩
  have hm : scripts.method "_impl" scripts.classes.length "debug.ProtocolDebug" = some Source.debug_ProtocolDebug__impl := rfl
  rw [static_eq _ _ _ _ hm]
  exact hN m (by omega) w hw ha

/-- C62: `ProtocolDebug._impl(protocol=.., kaitai=X, arguments=..)` uses the words that it is given, if there are any, in place of those
of the command line, and writes what is specified for each of them; it does so in any memory, and what has been written before remains. -/
theorem C62_impl (tool : Tool) (protocol name : PyStr) (argv : List PyStr) (arguments : Option (List PyStr)) (words : List PyStr)
    (hw : words = if arguments.getD [] = [] then argv else arguments.getD []) (hne : words ≠ []) (hd : ∀ u ∈ words, u.head? ≠ some '-')
    (σ : State) (hσ : Distinct σ.heap) (outs : List (List Output)) (h : List.Forall₂ (Accepted tool) words outs) :
    ∃ N, ∀ n, N ≤ n → ∀ (w : World), w.memory = σ → w.argv = name :: argv →
      (((calls scripts n).static "debug.ProtocolDebug" "_impl" [] (implArguments protocol tool arguments)).run w).ending =
        some (w.written ++ outs.flatten, .done) := by
  have := run_static_impl tool protocol name argv arguments (by rw [used_words, ← hw]; exact hd) σ hσ
  rwa [C46_all_good tool argv arguments words hw hne outs h] at this

/-- C62: and it raises the exception of the first word that the class does not decode. -/
theorem C62_impl_first_bad (tool : Tool) (protocol name : PyStr) (argv : List PyStr) (arguments : Option (List PyStr)) (good rest : List PyStr) (bad : PyStr)
    (hw : good ++ bad :: rest = if arguments.getD [] = [] then argv else arguments.getD []) (hd : ∀ u ∈ good ++ bad :: rest, u.head? ≠ some '-')
    (σ : State) (hσ : Distinct σ.heap) (outs : List (List Output)) (e : PyErr) (h : List.Forall₂ (Accepted tool) good outs) (hb : Rejected tool bad e) :
    ∃ N, ∀ n, N ≤ n → ∀ (w : World), w.memory = σ → w.argv = name :: argv →
      (((calls scripts n).static "debug.ProtocolDebug" "_impl" [] (implArguments protocol tool arguments)).run w).ending =
        some (w.written ++ outs.flatten, .exception e) := by
  have := run_static_impl tool protocol name argv arguments (by rw [used_words, ← hw]; exact hd) σ hσ
  rwa [C46_first_bad tool argv arguments good rest bad hw outs e h hb] at this

/-- C62: there is one command for each of the classes, and no other. -/
theorem C62_every_command : (scripts.commands.map Command.name).Nodup ∧
    ∀ name, name ∈ scripts.commands.map Command.name ↔ ∃ tool, name = commandName tool := by
  refine ⟨by decide, fun name => ⟨?_, ?_⟩⟩
  · intro h
    simp only [scripts, Source.commands, List.map_cons, List.map_nil, List.mem_cons, List.not_mem_nil, or_false] at h
    rcases h with h | h | h | h | h | h | h | h | h | h | h | h | h | h | h
    · exact ⟨.motorola_ars, h⟩
    · exact ⟨.motorola_tmp, h⟩
    · exact ⟨.hytera_rrs, h⟩
    · exact ⟨.hytera_tmp, h⟩
    · exact ⟨.hytera_ipsc, h⟩
    · exact ⟨.hytera_rcp, h⟩
    · exact ⟨.hytera_dds, h⟩
    · exact ⟨.hytera_hdap, h⟩
    · exact ⟨.hytera_hrnp, h⟩
    · exact ⟨.hytera_hstrp, h⟩
    · exact ⟨.hytera_lp, h⟩
    · exact ⟨.hytera_dtp, h⟩
    · exact ⟨.hytera_tp, h⟩
    · exact ⟨.homebrew, h⟩
    · exact ⟨.mmdvm, h⟩
  · rintro ⟨tool, rfl⟩
    cases tool <;> decide

/-- Two radio registrations, and a third one that is too short. -/
example (out out' : List Output) (h : Accepted .hytera_rrs "00030004 0a000001".toList out)
    (h' : Accepted .hytera_rrs "00030004 0a000002".toList out') :
    ∃ N, ∀ n, N ≤ n → runCommand scripts n "debug-hytera-rrs" ["debug-hytera-rrs".toList, "00030004 0a000001".toList, "00030004 0a000002".toList] =
      some (out ++ (out' ++ []), .done) :=
  C62_all_good .hytera_rrs _ _ (by decide) (by decide +kernel) [out, out'] (.cons h (.cons h' .nil))
example (out : List Output) (h : Accepted .hytera_rrs "00030004 0a000001".toList out) :
    ∃ N, ∀ n, N ≤ n → runCommand scripts n "debug-hytera-rrs" ["debug-hytera-rrs".toList, "00030004 0a000001".toList, "0003".toList, "zz".toList] =
      some (out ++ [], .exception .eof) :=
  C62_first_bad .hytera_rrs _ ["00030004 0a000001".toList] _ _ (by decide +kernel) [out] _ (.cons h .nil)
    (.inr ⟨[0, 3], ((C46_hex _).1 _).1 (by decide +kernel), rfl⟩)
/-- Words in place of those of the command line; and an empty list of them. -/
example (out : List Output) (h : Accepted .hytera_rrs "00030004 0a000001".toList out) :=
  C62_impl .hytera_rrs "RRS".toList "x".toList ["zz".toList] (some ["00030004 0a000001".toList]) _ rfl (by decide) (by decide +kernel) ⟨[], []⟩
    (fun o ho => by cases ho) [out] (.cons h .nil)
example :=
  C62_impl_first_bad .hytera_rrs "RRS".toList "x".toList ["0003".toList] (some []) [] [] _ rfl (by decide +kernel) ⟨[], []⟩
    (fun o ho => by cases ho) [] .eof .nil (.inr ⟨[0, 3], ((C46_hex _).1 _).1 (by decide +kernel), rfl⟩)
/-- An IPSC packet with payload 00 01 .. 21. -/
example : ∃ N, ∀ n, N ≤ n → (runCommand scripts n "debug-hytera-ipsc" ["debug-hytera-ipsc".toList, "00005a5a00000000000000000000000000000000000000000000000102030405060708090a0b0c0d0e0f101112131415161718191a1b1c1d1e1f2021000000000000000000000000".toList]).map linesAndEnding =
    some (2, ["DMR DATA: 010003020504070609080b0a0d0c0f0e111013121514171619181b1a1d1c1f1e21".toList], .done) := by
  obtain ⟨N, hN⟩ := run_command .hytera_ipsc "debug-hytera-ipsc".toList ["00005a5a00000000000000000000000000000000000000000000000102030405060708090a0b0c0d0e0f101112131415161718191a1b1c1d1e1f2021000000000000000000000000".toList] (by decide +kernel)
  refine ⟨N, fun n hn => ?_⟩
  rw [show commandName .hytera_ipsc = "debug-hytera-ipsc" from rfl] at hN
  rw [hN n hn]
  decide +kernel

end Dmr.Script
