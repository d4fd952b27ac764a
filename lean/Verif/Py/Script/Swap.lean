import Verif.Py.Script.Utils
import Verif.Props.Byteswap
/-
Running okdmr/kaitai/tools/byteswap.py.
-/

set_option autoImplicit false

namespace Dmr.Script

open Tools

theorem fn_byteswap_bytearray : scripts.functions.lookup "byteswap.byteswap_bytearray" = some Source.byteswap_byteswap_bytearray := by rfl
theorem fn_byteswap_bytes : scripts.functions.lookup "byteswap.byteswap_bytes" = some Source.byteswap_byteswap_bytes := by rfl

theorem every_second {α : Type} : ∀ (k : Nat) (l : List α), every 1 k l = everySecond k l
  | _, [] => by rw [every, everySecond]
  | 0, x :: l => by rw [every, everySecond, every_second 1 l]
  | k + 1, _ :: l => by rw [every, everySecond, every_second k l]

theorem put_nil {α : Type} : ∀ (k : Nat) (l : List α), putEverySecond k l [] = l
  | _, [] => by rw [putEverySecond]
  | 0, x :: l => by rw [putEverySecond]
  | k + 1, _ :: l => by rw [putEverySecond, put_nil k l]

theorem replace_second {α : Type} : ∀ (k : Nat) (l vs : List α), replaceEvery 1 k l vs = putEverySecond k l vs
  | _, [], _ => by rw [replaceEvery, putEverySecond]
  | k, x :: l, [] => by rw [put_nil, replaceEvery]; simp
  | 0, x :: l, v :: vs => by rw [replaceEvery, putEverySecond, replace_second 1 l vs]
  | k + 1, _ :: l, v :: vs => by rw [replaceEvery, putEverySecond, replace_second k l]; simp

theorem everySecond_one {α : Type} (l : List α) : everySecond 1 l = everySecond 0 (l.drop 1) := by
  cases l with
  | nil => rfl
  | cons a l => rfl

theorem putEverySecond_one {α : Type} (l vs : List α) : putEverySecond 1 l vs = l.take 1 ++ putEverySecond 0 (l.drop 1) vs := by
  cases l with
  | nil => rfl
  | cons a l => rw [putEverySecond]; rfl

/-- `data[0::2]` and `data[1::2]`. -/
theorem sliced_second {α : Type} (l : List α) (k : Nat) (hk : k = 0 ∨ k = 1) :
    sliced l (.pv (.int k)) (.pv .none) (.pv (.int 2)) = some (everySecond k l) := by
  show some (every 1 0 ((l.take l.length).drop (if (k : Int) < 0 then ((l.length : Int) + k).toNat else min (k : Int).toNat l.length))) = _
  rw [List.take_length, if_neg (by omega), Int.toNat_natCast, every_second]
  rcases hk with rfl | rfl
  · simp
  · cases l with
    | nil => rfl
    | cons a l => rw [everySecond_one, List.length_cons, Nat.min_eq_left (by omega)]

theorem assign_second {α : Type} (l vs : List α) (k : Nat) (hk : k = 0 ∨ k = 1) :
    assignSlice l (.pv (.int k)) (.pv .none) (.pv (.int 2)) vs = some (assignEverySecond k l vs) := by
  show (if vs.length = (every 1 0 ((l.take l.length).drop (if (k : Int) < 0 then ((l.length : Int) + k).toNat else min (k : Int).toNat l.length))).length then
    some (Except.ok (l.take (if (k : Int) < 0 then ((l.length : Int) + k).toNat else min (k : Int).toNat l.length) ++
      replaceEvery 1 0 ((l.take l.length).drop (if (k : Int) < 0 then ((l.length : Int) + k).toNat else min (k : Int).toNat l.length)) vs ++
      l.drop (max (if (k : Int) < 0 then ((l.length : Int) + k).toNat else min (k : Int).toNat l.length) l.length)))
    else some (Except.error PyErr.value)) = _
  rw [if_neg (show ¬ (k : Int) < 0 by omega), Int.toNat_natCast, List.take_length, every_second, replace_second, Nat.max_eq_right (Nat.min_le_right _ _), List.drop_length,
    List.append_nil]
  have h1 : everySecond 0 (l.drop (min k l.length)) = everySecond k l := by
    rcases hk with rfl | rfl
    · simp
    · cases l with
      | nil => rfl
      | cons a l => rw [everySecond_one, List.length_cons, Nat.min_eq_left (by omega)]
  have h2 : l.take (min k l.length) ++ putEverySecond 0 (l.drop (min k l.length)) vs = putEverySecond k l vs := by
    rcases hk with rfl | rfl
    · simp
    · cases l with
      | nil => rfl
      | cons a l => rw [putEverySecond_one, List.length_cons, Nat.min_eq_left (by omega)]
  rw [h1, h2, assignEverySecond]
  split <;> rfl

/-- `data[:trim]` -/
theorem sliced_to {α : Type} (l : List α) (k : Int) : sliced l (.pv .none) (.pv (.int k)) (.pv .none) = some (sliceTo l k) := by
  show some (every 0 0 ((l.take (if k < 0 then ((l.length : Int) + k).toNat else min k.toNat l.length)).drop 0)) = _
  rw [every_zero, List.drop_zero, sliceTo]
  congr 1
  split
  · rename_i h
    congr 1
    omega
  · by_cases h : k.toNat ≤ l.length
    · rw [Nat.min_eq_left h]
    · rw [Nat.min_eq_right (by omega), List.take_length, List.take_of_length_le (by omega)]

theorem readBuffer_run {w : World} {i : Nat} {b : Bytes} (h : w.buffers[i]? = some b) : (readBuffer i).run w = .ok b w := by
  simp only [S.run, readBuffer, h]

theorem run_newBuffer (w : World) (b : Bytes) : (newBuffer b).run w = .ok (.buffer w.buffers.length) { w with buffers := w.buffers ++ [b] } := rfl
theorem run_writeBuffer (w : World) (i : Nat) (b : Bytes) : (writeBuffer i b).run w = .ok () { w with buffers := w.buffers.set i b } := rfl

/-- What follows the padding. -/
def swapRest : List Stmt := Source.byteswap_byteswap_bytearray.body.drop 2

theorem run_swapRest (c : Calls) (w : World) (i : Nat) (d : Bytes) (t : Int) (h : w.buffers[i]? = some d) :
    ∃ temporaries, (execs c swapRest [("data", .buffer i), ("trim", .pv (.int t))]).run w =
      match assignEverySecond 0 d (everySecond 1 d) with
      | .error e => .raise e { w with buffers := w.buffers.set i d ++ temporaries }
      | .ok d1 =>
        match assignEverySecond 1 d1 (everySecond 0 d) with
        | .error e => .raise e { w with buffers := w.buffers.set i d1 ++ temporaries }
        | .ok d2 => .ok (.ret (.pv (.bytes (sliceTo d2 t)))) { w with buffers := w.buffers.set i d2 ++ temporaries } := by
  have hi := (List.getElem?_eq_some_iff.1 h).1
  have h0 : (0 : Int) = ((0 : Nat) : Int) := rfl
  have h1 : (1 : Int) = ((1 : Nat) : Int) := rfl
  have hset : w.buffers.set i d = w.buffers := by
    rw [← (List.getElem?_eq_some_iff.1 h).2]; exact List.set_getElem_self hi
  have r1 := sliced_second d 1 (.inr rfl)
  have r0 := sliced_second d 0 (.inl rfl)
  have g1 : (w.buffers ++ [everySecond 1 d])[i]? = some d := by rw [List.getElem?_append_left hi, h]
  script_run [swapRest, Source.byteswap_byteswap_bytearray, List.drop, sliceOf, readBuffer_run h, h0, h1, r1, run_newBuffer]
  script_run [readBuffer_run (w := { w with buffers := w.buffers ++ [everySecond 1 d] }) g1, r0, run_newBuffer, assignAll]
  set B := w.buffers ++ [everySecond 1 d] ++ [everySecond 0 d] with hB
  have b1 : B[w.buffers.length]? = some (everySecond 1 d) := by simp [hB]
  have b2 : B[i]? = some d := by rw [hB, List.getElem?_append_left (by simp; omega), g1]
  script_run [readBuffer_run (w := { w with buffers := B }) b1, readBuffer_run (w := { w with buffers := B }) b2, assign_second d (everySecond 1 d) 0 (.inl rfl)]
  cases h2 : assignEverySecond 0 d (everySecond 1 d) with
  | error e =>
    refine ⟨[everySecond 1 d, everySecond 0 d], ?_⟩
    script_run []
    rw [hset, hB, List.append_assoc]; rfl
  | ok d1 =>
    have hw : B.set i d1 = w.buffers.set i d1 ++ [everySecond 1 d, everySecond 0 d] := by
      rw [hB, List.append_assoc, List.set_append_left _ _ hi]; rfl
    have c1 : (B.set i d1)[(w.buffers ++ [everySecond 1 d]).length]? = some (everySecond 0 d) := by
      rw [List.getElem?_set_ne (by simp; omega)]; simp [hB]
    have c2 : (B.set i d1)[i]? = some d1 := by
      rw [List.getElem?_set_self (by rw [hB]; simp; omega)]
    script_run [run_writeBuffer, readBuffer_run (w := { w with buffers := B.set i d1 }) c1, readBuffer_run (w := { w with buffers := B.set i d1 }) c2,
      assign_second d1 (everySecond 0 d) 1 (.inr rfl)]
    cases h3 : assignEverySecond 1 d1 (everySecond 0 d) with
    | error e =>
      refine ⟨[everySecond 1 d, everySecond 0 d], ?_⟩
      script_run []
      rw [hw]
    | ok d2 =>
      refine ⟨[everySecond 1 d, everySecond 0 d, sliceTo d2 t], ?_⟩
      have e2 : (B.set i d2)[i]? = some d2 := by
        rw [List.getElem?_set_self (by rw [hB]; simp; omega)]
      have hw2 : B.set i d2 = w.buffers.set i d2 ++ [everySecond 1 d, everySecond 0 d] := by
        rw [hB, List.append_assoc, List.set_append_left _ _ hi]; rfl
      have e3 : (B.set i d2 ++ [sliceTo d2 t])[(B.set i d2).length]? = some (sliceTo d2 t) := by simp
      script_run [run_writeBuffer, List.set_set, readBuffer_run (w := { w with buffers := B.set i d2 }) e2, sliced_to, run_newBuffer, builtin,
        readBuffer_run (w := { w with buffers := B.set i d2 ++ [sliceTo d2 t] }) e3]
      rw [hw2, List.append_assoc]
      rfl

/-- The bytearray `i` is swapped, and the result is returned; the slices are new bytearrays. -/
theorem run_byteswap_bytearray (n : Nat) (w : World) (i : Nat) (data : Bytes) (h : w.buffers[i]? = some data) :
    ∃ temporaries, ((calls scripts (n + 1)).function "byteswap.byteswap_bytearray" [.buffer i] []).run w =
      match byteswapBytearray data with
      | (.ok out, data') => .ok (.pv (.bytes out)) { w with buffers := w.buffers.set i data' ++ temporaries }
      | (.error e, data') => .raise e { w with buffers := w.buffers.set i data' ++ temporaries } := by
  rw [function_eq _ _ _ fn_byteswap_bytearray]
  have hi := (List.getElem?_eq_some_iff.1 h).1
  have hlen : ∀ c : Calls, builtin c "len" [V.buffer i] [] = (do return .pv (.int (← readBuffer i).length)) := fun _ => rfl
  have hmod : ∀ a : Nat, BinOp.apply .mod (.pv (.int a)) (.pv (.int 2)) = pure (.pv (.int ((a % 2 : Nat) : Int))) := fun _ => rfl
  have hsub : ∀ a : Nat, BinOp.apply .sub (.pv (.int a)) (.pv (.int 1)) = pure (.pv (.int ((a : Int) - 1))) := fun _ => rfl
  have hne : ∀ a : Nat, CmpOp.apply .ne (.pv (.int a)) (.pv (.int 0)) = pure (decide (a ≠ 0)) := by
    intro a
    show (pure (!((a : Int) == 0)) : S Bool) = _
    congr 1
    cases a <;> rfl
  have rest := fun d w (h : w.buffers[i]? = some d) => run_swapRest (calls scripts n) w i d ((data.length : Int) - 1) h
  rw [Function.call, show Source.byteswap_byteswap_bytearray.params = [("data", none)] from rfl,
    show Source.byteswap_byteswap_bytearray.body = .assign (.name "trim") (.bin .sub (.call (.global "len") [.name "data"] []) (.int 1)) ::
      .if_ (.cmp .ne (.bin .mod (.call (.global "len") [.name "data"] []) (.int 2)) (.int 0)) [.expr (.call (.attr (.name "data") "append") [.int 0] [])] [] ::
      swapRest from rfl]
  generalize swapRest = R at rest
  script_run [hlen, readBuffer_run h, hsub, hmod, hne]
  unfold byteswapBytearray
  by_cases hp : data.length % 2 = 0
  · obtain ⟨t, ht⟩ := rest data w h
    refine ⟨t, ?_⟩
    simp only [hp, ne_eq, not_true_eq_false, decide_false, if_false]
    script_run []
    rw [ht]
    cases h2 : assignEverySecond 0 data (everySecond 1 data) with
    | error e => rfl
    | ok d1 =>
      dsimp only
      cases h3 : assignEverySecond 1 d1 (everySecond 0 data) with
      | error e => rfl
      | ok d2 => rfl
  · have hs : (w.buffers.set i (data ++ [0]))[i]? = some (data ++ [0]) := by rw [List.getElem?_set_self hi]
    obtain ⟨t, ht⟩ := rest (data ++ [0]) { w with buffers := w.buffers.set i (data ++ [0]) } hs
    refine ⟨t, ?_⟩
    have happ : ∀ c : Calls, (invoke c (.buffer i) "append" [.pv (.int 0)] []).run w = .ok (.pv .none) { w with buffers := w.buffers.set i (data ++ [0]) } := by
      intro c
      show ((readBuffer i).run w).bind _ = _
      rw [readBuffer_run h]
      rfl
    simp only [hp, ne_eq, not_false_eq_true, decide_true, if_true]
    script_run [happ]
    rw [ht]
    cases h2 : assignEverySecond 0 (data ++ [0]) (everySecond 1 (data ++ [0])) with
    | error e => simp only [bind_raise, List.set_set]
    | ok d1 =>
      dsimp only
      cases h3 : assignEverySecond 1 d1 (everySecond 0 (data ++ [0])) with
      | error e => simp only [bind_raise, List.set_set]
      | ok d2 => simp only [bind_ok, run_pure, List.set_set]

/-- `byteswap_bytes`. -/
theorem run_byteswap_bytes (n : Nat) (w : World) (data : Bytes) :
    ∃ temporaries, ((calls scripts (n + 2)).function "byteswap.byteswap_bytes" [.pv (.bytes data)] []).run w =
      match byteswapBytes data with
      | .ok out => .ok (.pv (.bytes out)) { w with buffers := w.buffers ++ temporaries }
      | .error e => .raise e { w with buffers := w.buffers ++ temporaries } := by
  rw [function_eq _ _ _ fn_byteswap_bytes]
  obtain ⟨t, h⟩ := run_byteswap_bytearray n { w with buffers := w.buffers ++ [data] } w.buffers.length data (by simp)
  refine ⟨(byteswapBytearray data).2 :: t, ?_⟩
  script_run [Source.byteswap_byteswap_bytes, builtin, run_newBuffer, h]
  unfold byteswapBytes
  rcases byteswapBytearray data with ⟨e | out, d⟩
  · script_run []
    simp
  · script_run []
    simp

end Dmr.Script
