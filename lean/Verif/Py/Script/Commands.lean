import Verif.Py.Script.Impl
/-
The commands that the package installs, run.
-/

set_option autoImplicit false

namespace Dmr.Script

open Py (Distinct library State)
open Tools

/-- The name of the command that runs a tool. -/
def commandName : Tool → String
  | .hytera_rrs => "debug-hytera-rrs"
  | .hytera_tmp => "debug-hytera-tmp"
  | .hytera_ipsc => "debug-hytera-ipsc"
  | .hytera_rcp => "debug-hytera-rcp"
  | .hytera_dds => "debug-hytera-dds"
  | .hytera_hdap => "debug-hytera-hdap"
  | .hytera_hrnp => "debug-hytera-hrnp"
  | .hytera_hstrp => "debug-hytera-hstrp"
  | .hytera_lp => "debug-hytera-lp"
  | .hytera_dtp => "debug-hytera-dtp"
  | .hytera_tp => "debug-hytera-tp"
  | .homebrew => "debug-homebrew"
  | .mmdvm => "debug-mmdvm"
  | .motorola_ars => "debug-motorola-ars"
  | .motorola_tmp => "debug-motorola-tmp"

/-- A function whose body is a call of `_impl` with a name and a class ends as `_impl` does. -/
theorem run_static (t : Tool) (cls p : String) (hm : scripts.method "_impl" scripts.classes.length cls = some Source.debug_ProtocolDebug__impl)
    (d : Function) (hd : d = { params := [], body := [.expr (.call (.attr (.script cls) "_impl") [] [("protocol", .str p), ("kaitai", .cls (className t))])] })
    (n : Nat) (w : World) :
    ((d.call (calls scripts (n + 1)) [] []).run w).ending =
      ((Source.debug_ProtocolDebug__impl.call (calls scripts n) [] (implArguments p.toList t none)).run w).ending := by
  subst hd
  have e3 : ∀ c n m a k, invoke c (.script n) m a k = c.static n m a k := fun _ _ _ _ _ => rfl
  obtain ⟨f, hf⟩ : ∃ f : S V, f = Source.debug_ProtocolDebug__impl.call (calls scripts n) [] (implArguments p.toList t none) := ⟨_, rfl⟩
  have e4 : (calls scripts (n + 1)).static cls "_impl" [] [("protocol", .pv (.str p.toList)), ("kaitai", .cls (className t))] = f := by
    rw [static_eq n cls "_impl" _ hm, hf]; rfl
  rw [← hf]
  clear hf
  script_run [e3, e4]
  cases f.run w <;> rfl

theorem run_command (t : Tool) (name : PyStr) (argv : List PyStr) (hd : ∀ u ∈ argv, u.head? ≠ some '-') :
    ∃ N, ∀ n, N ≤ n → runCommand scripts n (commandName t) (name :: argv) = some (debugImpl t argv none) := by
  obtain ⟨cls, m, p, d, hm, h1, h2, h3⟩ : ∃ (cls m p : String) (d : Function),
      scripts.method "_impl" scripts.classes.length cls = some Source.debug_ProtocolDebug__impl ∧
      d = { params := [], body := [.expr (.call (.attr (.script cls) "_impl") [] [("protocol", .str p), ("kaitai", .cls (className t))])] } ∧
      scripts.method m scripts.classes.length cls = some d ∧
      scripts.commands.find? (fun d => d.name == commandName t) = some ⟨commandName t, cls, m⟩ := by
    cases t
    all_goals exact ⟨_, _, _, _, rfl, rfl, rfl, rfl⟩
  obtain ⟨N, hN⟩ := run_impl t p.toList name argv none hd ⟨[], []⟩ (fun o ho => by cases ho)
  refine ⟨N + 2, fun n hn => ?_⟩
  obtain ⟨k, rfl⟩ : ∃ k, n = k + 2 := ⟨n - 2, by omega⟩
  simp only [runCommand, h3]
  rw [static_eq _ _ _ _ h2, run_static t cls p hm d h1, hN k (by omega) _ rfl rfl]
  rfl

end Dmr.Script
