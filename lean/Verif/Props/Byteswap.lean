import Mathlib.Data.Nat.Bitwise
import Verif.Model.Tools.Byteswap
/-
Property C44: the byte swapping tool.
-/

namespace Dmr.Tools

/-- Neighbouring elements exchanged. -/
def swapPairs : List α → List α
  | x :: y :: rest => y :: x :: swapPairs rest
  | l => l

theorem everySecond_one (y : α) (l : List α) : everySecond 1 (y :: l) = everySecond 0 l := rfl
theorem everySecond_zero (x : α) (l : List α) : everySecond 0 (x :: l) = x :: everySecond 1 l := rfl

theorem everySecond_pairs (x y : α) (l : List α) :
    everySecond 0 (x :: y :: l) = x :: everySecond 0 l ∧ everySecond 1 (x :: y :: l) = y :: everySecond 1 l := by
  constructor <;> rfl

theorem lengths_even : ∀ (n : Nat) (l : List α), l.length = 2 * n →
    (everySecond 0 l).length = n ∧ (everySecond 1 l).length = n
  | 0, [], _ => ⟨rfl, rfl⟩
  | n + 1, x :: y :: l, h => by
    have ih := lengths_even n l (by simp only [List.length_cons] at h; omega)
    rw [(everySecond_pairs x y l).1, (everySecond_pairs x y l).2]
    simp [ih]
  | n + 1, [], h => by simp at h
  | n + 1, [_], h => by simp at h; omega

theorem put_pairs (x y v : α) (l vs : List α) :
    putEverySecond 0 (x :: y :: l) (v :: vs) = v :: y :: putEverySecond 0 l vs ∧
    putEverySecond 1 (x :: y :: l) (v :: vs) = x :: v :: putEverySecond 1 l vs := by
  constructor <;> cases l <;> cases vs <;> simp [putEverySecond]

theorem assign_both : ∀ (n : Nat) (l : List α), l.length = 2 * n →
    (everySecond 1 (putEverySecond 0 l (everySecond 1 l))).length = n ∧
    putEverySecond 1 (putEverySecond 0 l (everySecond 1 l)) (everySecond 0 l) = swapPairs l
  | 0, [], _ => ⟨rfl, rfl⟩
  | n + 1, x :: y :: l, h => by
    obtain ⟨h1, h2⟩ := assign_both n l (by simp only [List.length_cons] at h; omega)
    rw [(everySecond_pairs x y l).1, (everySecond_pairs x y l).2, (put_pairs x y y l _).1, (put_pairs y y x _ _).2, h2,
      (everySecond_pairs y y _).2]
    exact ⟨by simp [h1], rfl⟩
  | n + 1, [], h => by simp at h
  | n + 1, [_], h => by simp at h; omega

theorem swapPairs_get : ∀ (n : Nat) (l : List α), l.length = 2 * n → ∀ i, (swapPairs l)[i]? = l[i ^^^ 1]?
  | 0, [], _, i => by simp [swapPairs]
  | n + 1, x :: y :: l, h, i => by
    have ih := swapPairs_get n l (by simp only [List.length_cons] at h; omega)
    match i with
    | 0 => rfl
    | 1 => rfl
    | i + 2 =>
      have hx : (i + 2) ^^^ 1 = (i ^^^ 1) + 2 := by
        rcases Nat.even_or_odd i with he | ho
        · obtain ⟨k, rfl⟩ := he
          have a1 : (k + k + 2) ^^^ 1 = k + k + 2 + 1 := Nat.xor_one_of_even ⟨k + 1, by omega⟩
          have a2 : (k + k) ^^^ 1 = k + k + 1 := Nat.xor_one_of_even ⟨k, rfl⟩
          rw [a1, a2]
        · obtain ⟨k, rfl⟩ := ho
          have a1 : (2 * k + 1 + 2) ^^^ 1 = 2 * k + 1 + 2 - 1 := Nat.xor_one_of_odd ⟨k + 1, by omega⟩
          have a2 : (2 * k + 1) ^^^ 1 = 2 * k + 1 - 1 := Nat.xor_one_of_odd ⟨k, rfl⟩
          rw [a1, a2]; omega
      rw [hx]
      simp [swapPairs, ih i]
  | n + 1, [], h, _ => by simp at h
  | n + 1, [_], h, _ => by simp at h; omega

theorem swapPairs_length : ∀ (l : List α), (swapPairs l).length = l.length
  | [] => rfl
  | [_] => rfl
  | x :: y :: l => by simp [swapPairs, swapPairs_length l]

/-- The padding to an even number of bytes. -/
def evenPadded (data : Bytes) : Bytes := if data.length % 2 ≠ 0 then data ++ [0x00] else data

theorem evenPadded_length (data : Bytes) : (evenPadded data).length = data.length + data.length % 2 := by
  unfold evenPadded
  split
  · simp; omega
  · omega

theorem byteswap_eq (data : Bytes) :
    byteswapBytearray data =
      (.ok ((swapPairs (evenPadded data)).take (data.length - 1)), swapPairs (evenPadded data)) := by
  have hl := evenPadded_length data
  obtain ⟨n, hn⟩ : ∃ n, (evenPadded data).length = 2 * n := ⟨(evenPadded data).length / 2, by omega⟩
  obtain ⟨h1, h2⟩ := lengths_even n _ hn
  obtain ⟨h3, h4⟩ := assign_both n _ hn
  unfold byteswapBytearray
  show (match assignEverySecond 0 (evenPadded data) (everySecond 1 (evenPadded data)) with
    | .error e => (Except.error e, evenPadded data)
    | .ok d => match assignEverySecond 1 d (everySecond 0 (evenPadded data)) with
      | .error e => (.error e, d)
      | .ok d => (.ok (sliceTo d ((data.length : Int) - 1)), d)) = _
  rw [assignEverySecond, h1, h2, if_pos rfl]
  simp only
  rw [assignEverySecond, h1, h3, if_pos rfl]
  simp only
  rw [h4]
  congr 2
  unfold sliceTo
  rcases Nat.eq_zero_or_pos data.length with h0 | hp
  · have : data = [] := List.length_eq_zero_iff.mp h0
    subst this
    rfl
  · rw [if_neg (by omega)]
    congr 1
    omega

/-- C44: `byteswap_bytes` never raises; its result is one byte shorter than the argument (empty for empty), and its byte `i`
is byte `i xor 1` of the argument, for even and odd lengths alike. -/
theorem C44_bytes (data : Bytes) :
    ∃ out, byteswapBytes data = .ok out ∧ out.length = data.length - 1 ∧
      ∀ i, i < out.length → i ^^^ 1 < data.length ∧ out[i]? = data[i ^^^ 1]? := by
  have hl := evenPadded_length data
  refine ⟨_, by rw [byteswapBytes, byteswap_eq], ?_, ?_⟩
  · rw [List.length_take, swapPairs_length]; omega
  · intro i hi
    rw [List.length_take, swapPairs_length] at hi
    have hx : i ^^^ 1 < data.length := by
      rcases Nat.even_or_odd i with he | ho
      · rw [Nat.xor_one_of_even he]; omega
      · rw [Nat.xor_one_of_odd ho]; omega
    obtain ⟨n, hn⟩ : ∃ n, (evenPadded data).length = 2 * n := ⟨(evenPadded data).length / 2, by omega⟩
    refine ⟨hx, ?_⟩
    rw [List.getElem?_take, if_pos (by omega), swapPairs_get n _ hn i]
    unfold evenPadded
    split
    · rw [List.getElem?_append_left hx]
    · rfl

/-- C44: `byteswap_bytearray` returns the same bytes, and leaves its argument with neighbouring bytes exchanged, after padding
with a zero byte to an even length. -/
theorem C44_bytearray (data : Bytes) :
    (byteswapBytearray data).1 = byteswapBytes data ∧
    (byteswapBytearray data).2.length = data.length + data.length % 2 ∧
    ∀ i, i < (byteswapBytearray data).2.length → (byteswapBytearray data).2[i]? = (data ++ [0x00])[i ^^^ 1]? := by
  have hl := evenPadded_length data
  refine ⟨rfl, by rw [byteswap_eq]; simp only [swapPairs_length, hl], ?_⟩
  rw [byteswap_eq]
  simp only [swapPairs_length]
  intro i hi
  obtain ⟨n, hn⟩ : ∃ n, (evenPadded data).length = 2 * n := ⟨(evenPadded data).length / 2, by omega⟩
  rw [swapPairs_get n _ hn i]
  unfold evenPadded
  split
  · rfl
  · rename_i he
    have hx : i ^^^ 1 < data.length := by
      rcases Nat.even_or_odd i with hev | ho
      · obtain ⟨k, rfl⟩ := hev
        rw [Nat.xor_one_of_even ⟨k, rfl⟩]; omega
      · rw [Nat.xor_one_of_odd ho]; omega
    rw [List.getElem?_append_left hx]

/-- C44: the swap is its own inverse on the argument of even length. -/
theorem C44_involution (data : Bytes) (h : data.length % 2 = 0) :
    (byteswapBytearray (byteswapBytearray data).2).2 = data := by
  have hp : ∀ d : Bytes, d.length % 2 = 0 → evenPadded d = d := fun d hd => by
    unfold evenPadded; rw [if_neg (by omega)]
  rw [byteswap_eq, byteswap_eq]
  simp only
  rw [hp data h, hp _ (by rw [swapPairs_length]; exact h)]
  clear h hp
  induction data using swapPairs.induct with
  | case1 x y rest ih => simp [swapPairs, ih]
  | case2 l hl =>
    match l with
    | [] => rfl
    | [_] => rfl
    | x :: y :: r => exact absurd rfl (hl x y r)

example := C44_involution [1, 2, 3, 4] rfl

example : byteswapBytes [1, 2, 3, 4] = .ok [2, 1, 4] := by decide
example : byteswapBytearray [1, 2, 3] = (.ok [2, 1], [2, 1, 0, 3]) := by decide

end Dmr.Tools
