import Verif.Py.Script.Base
import Verif.Props.MotorolaRounding
/-
Running okdmr/kaitai/motorola/motorola_utils.py.
-/

set_option autoImplicit false

namespace Dmr.Script

open Motorola.MotorolaUtils

/-- A list of numbers. -/
def numbers (l : List Nat) : V := .list (l.map fun (n : Nat) => .pv (.int n))

theorem fn_uintvar : scripts.functions.lookup "motorola_utils.uintvar_to_int" = some Source.motorola_utils_uintvar_to_int := by rfl
theorem fn_clear_msb : scripts.functions.lookup "motorola_utils.clear_msb" = some Source.motorola_utils_clear_msb := by rfl
theorem fn_sintvar : scripts.functions.lookup "motorola_utils.sintvar_to_int" = some Source.motorola_utils_sintvar_to_int := by rfl
theorem fn_ufloatvar : scripts.functions.lookup "motorola_utils.ufloatvar_to_float" = some Source.motorola_utils_ufloatvar_to_float := by rfl
theorem fn_sfloatvar : scripts.functions.lookup "motorola_utils.sfloatvar_to_float" = some Source.motorola_utils_sfloatvar_to_float := by rfl

theorem apply_shl7 (a : Nat) : BinOp.apply .shl (.pv (.int (a : Int))) (.pv (.int 7)) = pure (.pv (.int ((a <<< 7 : Nat) : Int))) := by
  simp [BinOp.apply, Nat.shiftLeft_eq]
theorem apply_band (a b : Nat) : BinOp.apply .band (.pv (.int (a : Int))) (.pv (.int (b : Int))) = pure (.pv (.int ((a &&& b : Nat) : Int))) := rfl
theorem apply_add (a b : Int) : BinOp.apply .add (.pv (.int a)) (.pv (.int b)) = pure (.pv (.int (a + b))) := rfl

theorem uintvar_loop (c : Calls) (v : V) (w : World) : ∀ (l : List Nat) (a : Nat) (rest : Env),
    ∃ rest', (forLoop (fun env => execs c [.assign (.name "_out") (.bin .add (.bin .shl (.name "_out") (.int 7)) (.bin .band (.name "single") (.int 127)))] env)
      "single" (l.map fun (n : Nat) => .pv (.int n)) (("payload", v) :: ("_out", .pv (.int a)) :: rest)).run w =
      .ok (.next (("payload", v) :: ("_out", .pv (.int (l.foldl (fun out single => (out <<< 7) + (single &&& 0x7F)) a : Nat))) :: rest')) w
  | [], a, rest => ⟨rest, rfl⟩
  | x :: l, a, rest => by
    have hx : ∀ r : Env, (upsert "single" (.pv (.int (x : Int))) r).lookup "single" = some (.pv (.int (x : Int))) := by
      intro r
      induction r with
      | nil => rfl
      | cons a r ih =>
        rw [upsert]
        split
        · rename_i h; rw [Py.lookup_cons, if_pos rfl]
        · rename_i h; rw [Py.lookup_cons, if_neg h, ih]
    obtain ⟨rest', h⟩ := uintvar_loop c v w l ((a <<< 7) + (x &&& 0x7F)) (upsert "single" (.pv (.int x)) rest)
    refine ⟨rest', ?_⟩
    have h127 : (127 : Int) = ((127 : Nat) : Int) := rfl
    script_run [List.map_cons, forLoop, hx, apply_shl7, h127, apply_band, apply_add]
    rw [List.foldl_cons, ← h]
    rfl

theorem run_uintvar (n : Nat) (l : List Nat) (w : World) :
    ((calls scripts (n + 1)).function "motorola_utils.uintvar_to_int" [numbers l] []).run w = .ok (.pv (.int (uintvar_to_int l))) w := by
  rw [function_eq _ _ _ fn_uintvar]
  obtain ⟨rest, h⟩ := uintvar_loop (calls scripts n) (numbers l) w l 0 []
  rw [show ((0 : Nat) : Int) = 0 from rfl] at h
  unfold numbers at h
  script_run [] at h
  script_run [Source.motorola_utils_uintvar_to_int, numbers]
  rw [h]
  script_run []
  rfl

theorem binary_digits (n : Nat) : ∀ c ∈ Nat.toDigits 2 n, c = '0' ∨ c = '1' := by
  have hd : ∀ m, m < 2 → Nat.digitChar m = '0' ∨ Nat.digitChar m = '1' := by decide
  induction n using Nat.strongRecOn with
  | _ n ih =>
    intro c hc
    by_cases h : n < 2
    · rw [Nat.toDigits_of_lt_base h, List.mem_singleton] at hc
      subst hc
      exact hd n h
    · rw [Nat.toDigits_of_base_le (by omega) (by omega), List.mem_append, List.mem_singleton] at hc
      rcases hc with hc | rfl
      · exact ih (n / 2) (by omega) c hc
      · exact hd _ (by omega)

theorem toDigits_ne_nil (n : Nat) : Nat.toDigits 2 n ≠ [] := by
  by_cases h : n < 2
  · rw [Nat.toDigits_of_lt_base h]; simp
  · rw [Nat.toDigits_of_base_le (by omega) (by omega)]; simp

theorem every_zero {α : Type} (l : List α) : every 0 0 l = l := by
  induction l with
  | nil => rfl
  | cons a l ih => rw [every, ih]

theorem sliced_from {α : Type} (l : List α) (k : Nat) : sliced l (.pv (.int k)) (.pv .none) (.pv .none) = some (l.drop k) := by
  show some (every 0 0 ((l.take l.length).drop (if (k : Int) < 0 then ((l.length : Int) + k).toNat else min (k : Int).toNat l.length))) = _
  rw [every_zero, List.take_length, if_neg (by omega), Int.toNat_natCast]
  congr 1
  by_cases h : k ≤ l.length
  · rw [Nat.min_eq_left h]
  · rw [Nat.min_eq_right (by omega), List.drop_length, List.drop_eq_nil_of_le (by omega)]

theorem run_clear_msb (n : Nat) (x : Nat) (w : World) :
    ((calls scripts (n + 1)).function "motorola_utils.clear_msb" [.pv (.int x)] []).run w = .ok (.pv (.int (clear_msb x))) w := by
  have hb : isBinary ('0' :: (pyBin x).drop 3) = true := by
    simp only [isBinary, List.isEmpty_cons, Bool.not_false, Bool.true_and, List.all_eq_true, Bool.or_eq_true, beq_iff_eq]
    intro c hc
    rcases List.mem_cons.1 hc with rfl | hc
    · exact .inl rfl
    · exact binary_digits x c (List.mem_of_mem_drop (i := 1) hc)
  have h3 : (3 : Int) = ((3 : Nat) : Int) := rfl
  rw [function_eq _ _ _ fn_clear_msb]
  script_run [Source.motorola_utils_clear_msb]
  rw [show builtin (calls scripts n) "bin" [V.pv (.int (x : Int))] [] = pure (.pv (.str (pyBin x))) from rfl]
  script_run [sliceOf, h3, sliced_from]
  rw [show BinOp.apply .add (.pv (.str "0".toList)) (.pv (.str ((pyBin x).drop 3))) = pure (.pv (.str ('0' :: (pyBin x).drop 3))) from rfl]
  script_run [builtin, hb]
  rfl

theorem run_clear_uintvar (n : Nat) (l : List Nat) (x : String) (env : Env) (h : env.lookup x = some (numbers l)) (w : World) :
    (eval (calls scripts (n + 1)) env (.call (.func "motorola_utils.clear_msb") [.call (.func "motorola_utils.uintvar_to_int") [.name x] []] [])).run w =
      .ok (.pv (.int (clear_msb (uintvar_to_int l)))) w := by
  script_run [h, run_uintvar, run_clear_msb]

/-- The test for the sign. -/
theorem run_sign (c : Calls) (x : String) (l : List Nat) (env : Env) (h : env.lookup x = some (numbers l)) (w : World) :
    (eval c env (.cmp .gt (.bin .band (.index (.name x) (.int 0)) (.int 64)) (.int 0))).run w =
      match l[0]? with
      | none => .raise .index w
      | some first => .ok (.pv (.bool (decide ((first &&& 0x40) > 0)))) w := by
  script_run [h, numbers]
  cases l with
  | nil => rfl
  | cons a l =>
    rw [show itemOf (V.list (List.map (fun (n : Nat) => V.pv (.int n)) (a :: l))) (.pv (.int 0)) = pure (.pv (.int a)) from rfl]
    have h64 : (64 : Int) = ((64 : Nat) : Int) := rfl
    script_run [h64, apply_band, CmpOp.apply]
    show Out.ok (V.pv (.bool (decide ((0 : Int) < ((a &&& 64 : Nat) : Int))))) w = Out.ok _ w
    congr 4
    simp

theorem run_sintvar (n : Nat) (l : List Nat) (w : World) :
    ((calls scripts (n + 2)).function "motorola_utils.sintvar_to_int" [numbers l] []).run w =
      match sintvar_to_int l with
      | .ok i => .ok (.pv (.int i)) w
      | .error e => .raise e w := by
  rw [function_eq _ _ _ fn_sintvar, Source.motorola_utils_sintvar_to_int]
  script_step []
  rw [run_clear_uintvar n l "payload" _ rfl]
  script_step []
  rw [run_sign _ "payload" l _ rfl]
  unfold sintvar_to_int
  cases l[0]? with
  | none => rfl
  | some a =>
    script_run []
    by_cases ha : a &&& 64 > 0
    · simp only [ha, decide_true, if_true]; rfl
    · simp only [ha, decide_false, if_false]; rfl

theorem run_quotient (n : Nat) (l : List Nat) (x : String) (env : Env) (h : env.lookup x = some (numbers l)) (w : World) :
    (eval (calls scripts (n + 1)) env (.bin .div (.call (.func "motorola_utils.uintvar_to_int") [.name x] [])
      (.bin .pow (.int 128) (.call (.global "len") [.name x] [])))).run w =
      match toBinary64 ((uintvar_to_int l : ℚ) / 128 ^ l.length) with
      | .ok q => .ok (.float ⟨false, q⟩) w
      | .error e => .raise e w := by
  script_run [h, run_uintvar]
  rw [show builtin (calls scripts (n + 1)) "len" [numbers l] [] = pure (.pv (.int l.length)) by
    show pure (V.pv (.int ((l.map fun (n : Nat) => V.pv (.int n)).length : Nat))) = _
    rw [List.length_map]]
  script_run []
  rw [show BinOp.apply .pow (.pv (.int 128)) (.pv (.int l.length)) = pure (.pv (.int (Int.ofNat (128 ^ l.length)))) by
    show (if (l.length : Int) < 0 then stuck else pure (V.pv (.int (128 ^ (l.length : Int).toNat)))) = _
    rw [if_neg (by omega), Int.toNat_natCast]
    congr 3]
  script_run []
  show S.run (if 128 ^ l.length = 0 then stuck else _) w = _
  rw [if_neg (by positivity), Nat.cast_pow]
  script_run []
  cases toBinary64 ((uintvar_to_int l : ℚ) / 128 ^ l.length) <;> rfl

/-- An integer and a fraction are added. The sum is never too large. -/
theorem run_sum (n a : Nat) (l : List Nat) (e : Expr) (x : String) (env : Env) (h : env.lookup x = some (numbers l)) (w : World)
    (he : (eval (calls scripts (n + 1)) env e).run w = .ok (.pv (.int a)) w) :
    (eval (calls scripts (n + 1)) env (.bin .add e (.bin .div (.call (.func "motorola_utils.uintvar_to_int") [.name x] [])
      (.bin .pow (.int 128) (.call (.global "len") [.name x] []))))).run w =
      match floatSum a (uintvar_to_int l) l.length with
      | .ok q => .ok (.float ⟨false, q⟩) w
      | .error e => .raise e w := by
  rw [eval]
  simp only [run_bind, he, bind_ok, run_quotient n l x env h]
  have hs := Motorola.floatSum_spec a (uintvar_to_int l) l.length (Motorola.C33_bound l)
  unfold floatSum at hs ⊢
  cases hf : toBinary64 ((uintvar_to_int l : ℚ) / 128 ^ l.length) with
  | error e => rfl
  | ok f =>
    rw [hf] at hs
    show (BinOp.apply .add (.pv (.int (a : Int))) (.float ⟨false, f⟩)).run w = _
    show (do
      let x ← except (toBinary64 a)
      match toBinary64 (x + f) with
      | .ok z => pure (V.float ⟨false, z⟩)
      | .error _ => stuck : S V).run w = _
    cases hw : toBinary64 (a : ℚ) with
    | error e => rfl
    | ok g =>
      have hlt : (a : ℚ) < 2 ^ (1024 : ℤ) - 2 ^ (970 : ℤ) := by
        rw [← not_le]
        intro h
        rw [(Motorola.toBinary64_overflow_iff (by positivity)).2 h] at hw
        cases hw
      obtain ⟨r, hr⟩ := hs.2.2 hlt
      rw [hw] at hr
      have hr : toBinary64 (g + f) = .ok r := hr
      script_run [hr]
      show _ = match toBinary64 (g + f) with
        | .ok q => Out.ok (V.float ⟨false, q⟩) w
        | .error e => Out.raise e w
      rw [hr]

theorem run_ufloatvar (n : Nat) (a b : List Nat) (w : World) :
    ((calls scripts (n + 2)).function "motorola_utils.ufloatvar_to_float" [numbers a, numbers b] []).run w =
      match ufloatvar_to_float a b with
      | .ok x => .ok (.float x) w
      | .error e => .raise e w := by
  rw [function_eq _ _ _ fn_ufloatvar, Source.motorola_utils_ufloatvar_to_float]
  script_step []
  rw [run_sum n (uintvar_to_int a) b _ "fraction_part" _ rfl w (by script_run [run_uintvar])]
  unfold ufloatvar_to_float
  cases floatSum (uintvar_to_int a) (uintvar_to_int b) b.length <;> rfl

theorem run_sfloatvar (n : Nat) (a b : List Nat) (w : World) :
    ((calls scripts (n + 2)).function "motorola_utils.sfloatvar_to_float" [numbers a, numbers b] []).run w =
      match sfloatvar_to_float a b with
      | .ok x => .ok (.float x) w
      | .error e => .raise e w := by
  rw [function_eq _ _ _ fn_sfloatvar, Source.motorola_utils_sfloatvar_to_float]
  script_step []
  rw [run_sum n (clear_msb (uintvar_to_int a)) b _ "fraction_part" _ rfl w (run_clear_uintvar n a "sint_part" _ rfl w)]
  unfold sfloatvar_to_float
  cases floatSum (clear_msb (uintvar_to_int a)) (uintvar_to_int b) b.length with
  | error e => rfl
  | ok q =>
    script_step []
    rw [run_sign _ "sint_part" a _ rfl]
    show _ = match (match a[0]? with
      | none => .error .index
      | some first => .ok ⟨decide ((first &&& 0x40) > 0), q⟩ : Except PyErr PyFloat) with
      | .ok x => Out.ok (V.float x) w
      | .error e => Out.raise e w
    cases a[0]? with
    | none => rfl
    | some a =>
      script_run []
      by_cases ha : a &&& 64 > 0
      · simp only [ha, decide_true, if_true]; rfl
      · simp only [ha, decide_false]; rfl

end Dmr.Script
