import Verif.Proof.Filter
import Verif.Torch.Solve
import Mathlib.Tactic.LinearCombination

/-! # Initial states of filters (no tensors) -/

namespace Spec
open Finset
section
variable {α : Type} [CommRing α]

/-- The delay line of transposed direct form II in terms of past inputs and outputs. -/
def pastState (M : Nat) (b a : Nat → α) (x y : Int → α) (n : Int) (m : Nat) : α :=
  ∑ j ∈ range M, (b (m + 1 + j) * x (n - 1 - j) - a (m + j) * y (n - 1 - j))

theorem pastState_succ {M : Nat} {b a : Nat → α} (hb : ∀ j, M < j → b j = 0) (ha : ∀ j, M ≤ j → a j = 0) (x y : Int → α)
    (n : Int) {m : Nat} (hm : m < M) :
    pastState M b a x y (n + 1) m = b (m + 1) * x n - a m * y n + if m + 1 < M then pastState M b a x y n (m + 1) else 0 := by
  obtain ⟨L, rfl⟩ : ∃ L, M = L + 1 := ⟨M - 1, by omega⟩
  have e : pastState (L + 1) b a x y n (m + 1) =
      ∑ j ∈ range L, (b (m + 1 + (j + 1)) * x (n + 1 - 1 - (j + 1 : Nat)) - a (m + (j + 1)) * y (n + 1 - 1 - (j + 1 : Nat))) := by
    unfold pastState
    rw [sum_range_succ, hb (m + 1 + 1 + L) (by omega), ha (m + 1 + L) (by omega)]
    simp only [zero_mul, sub_zero, add_zero]
    refine sum_congr rfl fun j _ => ?_
    rw [show m + 1 + 1 + j = m + 1 + (j + 1) by ring, show m + 1 + j = m + (j + 1) by ring,
      show n + 1 - 1 - ((j + 1 : Nat) : Int) = n - 1 - j by push_cast; ring]
  have e2 : pastState (L + 1) b a x y (n + 1) m = b (m + 1) * x n - a m * y n + pastState (L + 1) b a x y n (m + 1) := by
    rw [e]
    unfold pastState
    rw [sum_range_succ', add_comm]
    simp
  rw [e2]
  by_cases h : m + 1 < L + 1
  · rw [if_pos h]
  · rw [if_neg h]
    congr 1
    exact sum_eq_zero fun j _ => by rw [hb _ (by omega), ha _ (by omega)]; ring

/-- Started from the past of a solution of the difference equation, transposed direct form II continues the solution. -/
theorem tdf2_past {M : Nat} (hM : 0 < M) {b a z : Nat → α} (hb : ∀ j, M < j → b j = 0) (ha : ∀ j, M ≤ j → a j = 0)
    {x y : Int → α} (hy : ∀ n : Nat, y n = taps (M + 1) b x n - taps M a y (n - 1))
    (hz : ∀ m, m < M → z m = pastState M b a x y 0 m) (n : Nat) :
    tdf2Out M b a z (fun t => x t) n = y n ∧
      ∀ m, m < M → tdf2State M b a z (fun t => x t) n m = pastState M b a x y n m := by
  have out : ∀ n : Nat, (∀ m, m < M → tdf2State M b a z (fun t => x t) n m = pastState M b a x y n m) →
      tdf2Out M b a z (fun t => x t) n = y n := by
    intro n h
    rw [tdf2Out, h 0 hM, hy n, taps_succ, pastState, sum_sub_distrib, taps]
    simp only [Nat.zero_add, Nat.add_comm 1]
    ring
  have st : ∀ n : Nat, ∀ m, m < M → tdf2State M b a z (fun t => x t) n m = pastState M b a x y n m := by
    intro n
    induction n with
    | zero => exact hz
    | succ n ih =>
      intro m hm
      rw [tdf2_step _ _ _ _ _ hm, out n ih, Nat.cast_succ, pastState_succ hb ha x y _ hm]
      congr 1
      split
      · exact ih _ ‹_›
      · rfl
  exact ⟨out n (st n), st n⟩

/-- A fixed point of the transposed direct form II delay line. -/
theorem tdf2_steady {M : Nat} {b a z : Nat → α} {c : α}
    (hz : ∀ m, m < M → z m = ∑ j ∈ range M, comp a j m * z j + (b (m + 1) - b 0 * a m) * c) (n : Nat) {m : Nat}
    (hm : m < M) : tdf2State M b a z (fun _ => c) n m = z m := by
  induction n generalizing m with
  | zero => rfl
  | succ n ih =>
    conv_lhs => rw [tdf2State]; simp only [vecRec]
    rw [← tdf2State, hz m hm]
    congr 1
    exact sum_congr rfl fun j hj => by rw [ih (mem_range.1 hj)]

/-- A fixed point of direct form II. -/
theorem df2_steady {M : Nat} {a z : Nat → α} {c : α}
    (hz : ∀ m, m < M → z m = ∑ j ∈ range M, comp a m j * z j + if m = 0 then c else 0) (n : Nat) {m : Nat}
    (hm : m < M) : vecRec M (fun _ => comp a) z (first fun _ => c) n m = z m := by
  induction n generalizing m with
  | zero => rfl
  | succ n ih =>
    simp only [vecRec]
    rw [hz m hm]
    congr 1
    exact sum_congr rfl fun j hj => by rw [ih (mem_range.1 hj)]

/-- The first state of a transposed system: sum of all equations. -/
theorem steady_sum {M : Nat} (hM : 0 < M) {a z g : Nat → α}
    (hz : ∀ m, m < M → z m = ∑ j ∈ range M, comp a j m * z j + g m) :
    (1 + ∑ m ∈ range M, a m) * z 0 = ∑ m ∈ range M, g m := by
  have h1 : ∑ m ∈ range M, z m = ∑ m ∈ range M, (-(a m * z 0) + (if m + 1 < M then z (m + 1) else 0) + g m) :=
    sum_congr rfl fun m hm => by
      conv_lhs => rw [hz m (mem_range.1 hm), comp_mv_transpose a z (mem_range.1 hm)]
  rw [sum_add_distrib, sum_add_distrib, sum_neg_distrib, ← sum_mul] at h1
  have h2 : ∑ m ∈ range M, (if m + 1 < M then z (m + 1) else 0) = ∑ m ∈ range M, z m - z 0 := by
    obtain ⟨L, rfl⟩ : ∃ L, M = L + 1 := ⟨M - 1, by omega⟩
    rw [sum_range_succ' (fun m => z m), sum_range_succ, if_neg (by omega), add_zero, add_sub_cancel_right]
    exact sum_congr rfl fun m hm => by rw [if_pos (by have := mem_range.1 hm; omega)]
  rw [h2] at h1
  linear_combination h1

end

variable {α : Type} [Field α]
open Torch Torch.Tensor

/-- `I - Aᵀ` for a companion matrix is invertible when `1 + Σ a ≠ 0`. -/
theorem det_comp_transpose {M : Nat} (a : Nat → α) (h : 1 + ∑ m ∈ range M, a m ≠ 0) :
    (mat M M fun i j => (if i = j then 1 else 0) - comp a j i).det ≠ 0 := by
  refine det_ne_zero_of_kernel _ fun v hv => ?_
  by_cases hM : 0 < M
  swap
  · intro i hi; omega
  have hv' : ∀ m, m < M → v m = ∑ j ∈ range M, comp a j m * v j + 0 := by
    intro m hm
    have := hv m hm
    simp only [sub_mul, sum_sub_distrib, ite_mul, one_mul, zero_mul] at this
    rw [sum_ite_eq, if_pos (mem_range.2 hm)] at this
    linear_combination this
  have h0 : v 0 = 0 := by
    have := steady_sum hM hv'
    simp only [sum_const_zero] at this
    exact (mul_eq_zero.1 this).resolve_left h
  intro i hi
  induction i with
  | zero => exact h0
  | succ i ih =>
    have := hv' i (by omega)
    rw [comp_mv_transpose a v (by omega), ih (by omega), h0, if_pos hi] at this
    linear_combination -this

theorem det_comp {M : Nat} (a : Nat → α) (h : 1 + ∑ m ∈ range M, a m ≠ 0) :
    (mat M M fun i j => (if i = j then 1 else 0) - comp a i j).det ≠ 0 := by
  have := det_comp_transpose a h
  rw [← Matrix.det_transpose] at this
  convert this using 2
  ext i j
  simp only [mat, Matrix.of_apply, Matrix.transpose_apply]
  congr 1
  simp [eq_comm]

end Spec
