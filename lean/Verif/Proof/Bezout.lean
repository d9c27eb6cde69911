import Verif.Spec.Bezout
import Verif.Proof.Filter
import Mathlib.Tactic.LinearCombination

/-! # Lemmas on the change of states by the Bézout matrix -/

namespace Spec
open Finset
variable {α : Type} [CommRing α]

/-- The delay line of the transposed form in terms of the internal signal of the direct form, at time `n`. -/
def lineOf (M : Nat) (b a : Nat → α) (w : Int → α) (n : Int) (m : Nat) : α :=
  ∑ k ∈ range (M + 1), ∑ j ∈ range (M + 1),
    if j ≤ m ∧ m < k then (b k * withOne a j - withOne a k * b j) * w (n + m - k - j) else 0

theorem lineOf_bezout (M : Nat) (b a : Nat → α) (w : Int → α) (n : Int) (m : Nat) :
    lineOf M b a w n m = convertState M b a (fun l => w (n - 1 - l)) m := by
  unfold convertState bezout lineOf
  simp only [sum_mul]
  rw [sum_comm (s := range M)]
  refine sum_congr rfl fun k hk => ?_
  rw [sum_comm (s := range M)]
  refine sum_congr rfl fun j hj => ?_
  by_cases h : j ≤ m ∧ m < k
  · have := mem_range.1 hk
    rw [if_pos h, sum_eq_single_of_mem (j + k - m - 1) (mem_range.2 (by omega)) fun l _ hl => by rw [if_neg (by omega), zero_mul],
      if_pos ⟨h.1, h.2, by omega⟩]
    congr 2; omega
  · rw [if_neg h, sum_eq_zero fun l _ => by rw [if_neg (fun c => h ⟨c.1, c.2.1⟩), zero_mul]]

theorem lineOf_end (M : Nat) (b a : Nat → α) (w : Int → α) (n : Int) : lineOf M b a w n M = 0 :=
  sum_eq_zero fun k hk => sum_eq_zero fun j _ => by
    have := mem_range.1 hk
    rw [if_neg (by omega)]

/-- One step of the delay line. -/
theorem lineOf_step (M : Nat) (b a : Nat → α) (w : Int → α) (n : Int) {m : Nat} (hm : m < M) :
    lineOf M b a w (n + 1) m = lineOf M b a w n (m + 1) +
      (b (m + 1) * ∑ j ∈ range (M + 1), withOne a j * w (n - j) - a m * ∑ j ∈ range (M + 1), b j * w (n - j)) := by
  have e1 : ∑ j ∈ range (M + 1), (if j ≤ m then (b (m + 1) * withOne a j - withOne a (m + 1) * b j) * w (n - j) else 0) =
      ∑ k ∈ range (M + 1), ∑ j ∈ range (M + 1),
        if k = m + 1 then (if j ≤ m then (b k * withOne a j - withOne a k * b j) * w (n + 1 + m - k - j) else 0) else 0 := by
    rw [sum_eq_single_of_mem (m + 1) (mem_range.2 (by omega)) fun k _ hk => sum_eq_zero fun j _ => if_neg hk]
    refine sum_congr rfl fun j _ => ?_
    rw [if_pos rfl, show n + 1 + (m : Int) - (m + 1 : Nat) - j = n - j by push_cast; ring]
  have e2 : ∑ k ∈ range (M + 1), (if m + 1 < k then (b k * withOne a (m + 1) - withOne a k * b (m + 1)) * w (n - k) else 0) =
      ∑ k ∈ range (M + 1), ∑ j ∈ range (M + 1),
        if j = m + 1 then (if m + 1 < k then (b k * withOne a j - withOne a k * b j) * w (n + 1 + m - k - j) else 0) else 0 := by
    refine sum_congr rfl fun k _ => ?_
    rw [sum_eq_single_of_mem (m + 1) (mem_range.2 (by omega)) fun j _ hj => if_neg hj, if_pos rfl,
      show n + 1 + (m : Int) - k - (m + 1 : Nat) = n - k by push_cast; ring]
  have e3 : lineOf M b a w (n + 1) m + ∑ k ∈ range (M + 1),
        (if m + 1 < k then (b k * withOne a (m + 1) - withOne a k * b (m + 1)) * w (n - k) else 0) =
      lineOf M b a w n (m + 1) +
        ∑ j ∈ range (M + 1), (if j ≤ m then (b (m + 1) * withOne a j - withOne a (m + 1) * b j) * w (n - j) else 0) := by
    rw [e1, e2]
    unfold lineOf
    rw [← sum_add_distrib, ← sum_add_distrib]
    refine sum_congr rfl fun k _ => ?_
    rw [← sum_add_distrib, ← sum_add_distrib]
    refine sum_congr rfl fun j _ => ?_
    rw [show n + ((m + 1 : Nat) : Int) - k - j = n + 1 + m - k - j by push_cast; ring]
    by_cases h1 : j ≤ m <;> by_cases h2 : k = m + 1 <;> by_cases h3 : m + 1 < k <;> by_cases h4 : j = m + 1 <;>
      first | omega | simp [h1, h2, h3, h4, show (m < k) ↔ (k = m + 1 ∨ m + 1 < k) by omega, show j ≤ m + 1 ↔ (j ≤ m ∨ j = m + 1) by omega]
  have e4 : ∑ j ∈ range (M + 1), (if j ≤ m then (b (m + 1) * withOne a j - withOne a (m + 1) * b j) * w (n - j) else 0) =
      b (m + 1) * ∑ j ∈ range (M + 1), withOne a j * w (n - j) - a m * ∑ j ∈ range (M + 1), b j * w (n - j) +
      ∑ k ∈ range (M + 1), (if m + 1 < k then (b k * withOne a (m + 1) - withOne a k * b (m + 1)) * w (n - k) else 0) := by
    rw [mul_sum, mul_sum, ← sum_sub_distrib, ← sum_add_distrib]
    refine sum_congr rfl fun j _ => ?_
    have ea : withOne a (m + 1) = a m := rfl
    by_cases h1 : j ≤ m
    · rw [if_pos h1, if_neg (by omega), ea]; ring
    · rw [if_neg h1]
      by_cases h2 : m + 1 < j
      · rw [if_pos h2, ea]; ring
      · obtain rfl : j = m + 1 := by omega
        rw [if_neg h2, ea]; ring
  linear_combination e3 + e4

/-- The first entry of the delay line. -/
theorem lineOf_out {M : Nat} (b a : Nat → α) (w : Int → α) (n : Int) :
    lineOf M b a w n 0 + b 0 * ∑ j ∈ range (M + 1), withOne a j * w (n - j) = ∑ j ∈ range (M + 1), b j * w (n - j) := by
  have e : lineOf M b a w n 0 = ∑ k ∈ range (M + 1), (b k - withOne a k * b 0) * w (n - k) := by
    refine sum_congr rfl fun k _ => ?_
    rw [sum_eq_single_of_mem 0 (mem_range.2 (by omega)) fun j _ hj => if_neg (by omega)]
    by_cases h : 0 < k
    · rw [if_pos ⟨le_rfl, h⟩]
      simp [withOne]
    · obtain rfl : k = 0 := by omega
      rw [if_neg (by omega)]
      simp [withOne]
  rw [e, mul_sum, ← sum_add_distrib]
  exact sum_congr rfl fun j _ => by ring

theorem denominator_df {M : Nat} (hM : 0 < M) (a z x : Nat → α) (n : Nat) :
    ∑ j ∈ range (M + 1), withOne a j * dfSignal M a z x ((n : Int) - j) = x n := by
  rw [sum_range_succ', show ((n : Int) - (0 : Nat)) = n by simp, df_signal hM]
  have : ∑ k ∈ range M, withOne a (k + 1) * dfSignal M a z x ((n : Int) - (k + 1 : Nat)) =
      ∑ k ∈ range M, a k * dfSignal M a z x ((n : Int) - 1 - k) :=
    sum_congr rfl fun k _ => by rw [show ((n : Int) - (k + 1 : Nat)) = n - 1 - k by push_cast; ring]; rfl
  rw [this, withOne]; ring

/-- The delay line of tdf2, started from the converted state of df2, stays the converted state, and the outputs agree. -/
theorem tdf2_convert {M : Nat} (hM : 0 < M) (b a z x : Nat → α) (n : Nat) :
    (∀ m, m < M → tdf2State M b a (convertState M b a z) x n m =
      convertState M b a (fun l => dfSignal M a z x ((n : Int) - 1 - l)) m) ∧
    tdf2Out M b a (convertState M b a z) x n = ∑ j ∈ range (M + 1), b j * dfSignal M a z x ((n : Int) - j) := by
  have out : ∀ n : Nat, (∀ m, m < M → tdf2State M b a (convertState M b a z) x n m =
      convertState M b a (fun l => dfSignal M a z x ((n : Int) - 1 - l)) m) →
      tdf2Out M b a (convertState M b a z) x n = ∑ j ∈ range (M + 1), b j * dfSignal M a z x ((n : Int) - j) := fun n h => by
    rw [tdf2Out, h 0 hM, ← lineOf_bezout M b a _ n 0, ← lineOf_out b a, denominator_df hM]
  have st : ∀ n : Nat, ∀ m, m < M → tdf2State M b a (convertState M b a z) x n m =
      convertState M b a (fun l => dfSignal M a z x ((n : Int) - 1 - l)) m := by
    intro n
    induction n with
    | zero =>
      intro m _
      have : (fun l : Nat => dfSignal M a z x (((0 : Nat) : Int) - 1 - l)) = z := by
        funext l
        rw [show ((0 : Nat) : Int) - 1 - l = -1 - l by simp, dfSignal_past]
      rw [this]; rfl
    | succ n ih =>
      intro m hm
      rw [tdf2_step _ _ _ _ _ hm, out n ih, ← lineOf_bezout M b a, show (((n + 1 : Nat) : Int)) = n + 1 by push_cast; ring,
        lineOf_step M b a _ _ hm, denominator_df hM]
      by_cases h : m + 1 < M
      · rw [if_pos h, ih _ h, ← lineOf_bezout M b a]; ring
      · obtain rfl : M = m + 1 := by omega
        rw [if_neg h, lineOf_end]; ring
  exact ⟨st n, out n (st n)⟩

/-- The states of tdf2 are determined by the output. -/
theorem tdf2_observable {M N : Nat} {b a z z' x : Nat → α}
    (h : ∀ n, n < N → tdf2Out M b a z x n = tdf2Out M b a z' x n) (m : Nat) (hm : m < M) (n : Nat) (hn : n + m < N) :
    tdf2State M b a z x n m = tdf2State M b a z' x n m := by
  induction m generalizing n with
  | zero =>
    have := h n (by omega)
    unfold tdf2Out at this
    exact add_right_cancel this
  | succ m ih =>
    have e := ih (by omega) (n + 1) (by omega)
    rw [tdf2_step _ _ _ _ _ (by omega), tdf2_step _ _ _ _ _ (by omega), if_pos hm, if_pos hm, h n (by omega)] at e
    exact add_left_cancel e

end Spec
