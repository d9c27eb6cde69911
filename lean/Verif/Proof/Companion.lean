import Verif.Model.Mat
import Verif.Spec.Companion
import Mathlib.Tactic.LinearCombination

namespace Phil.Mat
open Torch Torch.Tensor Finset Spec
variable {α : Type} [CommRing α]

theorem comp_cell (M : Nat) (a : Nat → α) {i j : Nat} (hj : j < M) :
    (if i = j + 1 then (1 : α) else if i * M + j < M then -a (i * M + j) else 0) = comp a i j := by
  unfold comp
  by_cases h0 : i = 0
  · subst h0
    rw [if_neg (by omega), if_pos rfl]
    simp [hj]
  · rw [if_neg h0]
    have : ¬ i * M + j < M := by
      have : 1 * M ≤ i * M := Nat.mul_le_mul_right _ (by omega)
      omega
    rw [if_neg this]

theorem comp_size {M : Nat} (hM : 0 < M) : M + M * (M - 1) = M * M := by
  obtain ⟨k, rfl⟩ : ∃ k, M = k + 1 := ⟨M - 1, by omega⟩
  rw [Nat.add_sub_cancel]; ring

theorem companion_t1 {M : Nat} (a : Nat → α) (hM : 0 < M) :
    companion (t1 M a) = .ok (t2 M M (comp a)) := by
  unfold companion
  refine check_step (by simp) ?_
  refine bind_step (v := t1 (M * M) fun i => if i < M then -a i else 0) ?_ ?_
  · rw [show zeros ((t1 M a).shape.dropLast ++ [(t1 M a).size (-1) * ((t1 M a).size (-1) - 1)]) =
      (t1 (M * (M - 1)) fun _ => (0 : α)) from by rw [size_t1_n1]; exact full_t1 _ 0]
    rw [neg, map_t1, cat2_t1_n1, comp_size hM]
  refine bind_step (by rw [size_t1_n1]; exact unflatten_t1_n1_c_c M M _) ?_
  refine congrArg Except.ok (ext2 rfl rfl fun i j hi hj => ?_)
  rw [get_t2 hi hj, ← comp_cell M a hj, get_ofFn, if_pos (by simp [t2, inB, hi, hj, shape_ofFn])]
  rw [get_t2 hi hj]
  rfl

theorem companion_t2 {B M : Nat} (a : Nat → Nat → α) (hM : 0 < M) :
    companion (t2 B M a) = .ok (t3 B M M fun b => comp (a b)) := by
  unfold companion
  refine check_step (by simp) ?_
  refine bind_step (v := t2 B (M * M) fun b i => if i < M then -a b i else 0) ?_ ?_
  · rw [show zeros ((t2 B M a).shape.dropLast ++ [(t2 B M a).size (-1) * ((t2 B M a).size (-1) - 1)]) =
      (t2 B (M * (M - 1)) fun _ _ => (0 : α)) from by rw [size_t2_n1]; exact full_t2 _ _ 0]
    rw [neg, map_t2, cat2_t2_n1, comp_size hM]
  refine bind_step (by rw [size_t2_n1]; exact unflatten_t2_n1_c_c B M M _) ?_
  refine congrArg Except.ok (ext3 rfl rfl fun b i j hb hi hj => ?_)
  rw [get_t3 hb hi hj, ← comp_cell M (a b) hj, get_ofFn, if_pos (by simp [t3, inB, hb, hi, hj, shape_ofFn])]
  rw [get_t3 hb hi hj]
  rfl

theorem companion_t3 {B N M : Nat} (a : Nat → Nat → Nat → α) (hM : 0 < M) :
    companion (t3 B N M a) = .ok (t4 B N M M fun b t => comp (a b t)) := by
  unfold companion
  refine check_step (by simp) ?_
  refine bind_step (v := t3 B N (M * M) fun b t i => if i < M then -a b t i else 0) ?_ ?_
  · rw [show zeros ((t3 B N M a).shape.dropLast ++ [(t3 B N M a).size (-1) * ((t3 B N M a).size (-1) - 1)]) =
      (t3 B N (M * (M - 1)) fun _ _ _ => (0 : α)) from by rw [size_t3_n1]; exact full_t3 _ _ _ 0]
    rw [neg, map_t3, cat2_t3_n1, comp_size hM]
  refine bind_step (by rw [size_t3_n1]; exact unflatten_t3_n1_c_c B N M M _) ?_
  refine congrArg Except.ok (ext4 rfl rfl fun b t i j hb ht hi hj => ?_)
  rw [get_t4 hb ht hi hj, ← comp_cell M (a b t) hj, get_ofFn, if_pos (by simp [t4, inB, hb, ht, hi, hj, shape_ofFn])]
  rw [get_t4 hb ht hi hj]
  rfl

theorem vandermonde_t1 {M : Nat} (p : Nat → α) :
    vandermonde (t1 M p) = .ok (t2 M M fun i j => p j ^ (M - 1 - i)) := by
  unfold vandermonde
  refine check_step (by simp) ?_
  rw [size_t1_n1]
  split
  · rename_i h
    subst h
    rw [show full (t1 1 p).shape (1 : α) = t1 1 fun _ => 1 from full_t1 _ 1, unsqueeze_t1_n1]
    refine congrArg Except.ok (t2_congr rfl rfl fun i j hi hj => ?_)
    simp
  · refine check_step (by simp) ?_
    rw [show (ofFn ((t1 M p).shape ++ [M]) fun l => (t1 M p).get l.dropLast ^ (M - 1 - l.getLastD 0)) =
      t2 M M fun i j => p i ^ (M - 1 - j) from ?_, mT, transpose_t2_n2_n1]
    refine ext2 rfl rfl fun i j hi hj => ?_
    rw [get_t2 hi hj, get_ofFn, if_pos (by simp [t1, inB, hi, hj, shape_ofFn])]
    show (t1 M p).get [i] ^ _ = _
    rw [get_t1 hi]
    rfl

theorem vandermonde_one {B : Nat} (p : Nat → Nat → α) :
    vandermonde (t2 B 1 p) = .ok (t3 B 1 1 fun _ _ _ => 1) := by
  unfold vandermonde
  refine check_step (by simp) ?_
  rw [size_t2_n1, if_pos rfl, show full (t2 B 1 p).shape (1 : α) = t2 B 1 fun _ _ => 1 from full_t2 _ _ 1, unsqueeze_t2_n1]

/-- A batch of pole tuples is rejected, whatever its shape, unless each tuple has one pole. -/
theorem vandermonde_batch {p : Tensor α} (h1 : p.size (-1) ≠ 1) (hr : p.rank ≠ 1) : Fails (vandermonde p) := by
  unfold vandermonde
  refine fails_check fun _ => ?_
  rw [if_neg h1]
  exact fails_check fun h => absurd h hr

/-- A column of powers of a root is an eigenvector of the companion matrix. -/
theorem comp_mul_powers {M : Nat} (a : Nat → α) (z : α)
    (hz : z ^ M + ∑ k ∈ range M, a k * z ^ (M - 1 - k) = 0) {i : Nat} (hi : i < M) :
    ∑ w ∈ range M, comp a i w * z ^ (M - 1 - w) = z ^ (M - 1 - i) * z := by
  unfold comp
  by_cases h0 : i = 0
  · subst h0
    simp only [if_true, neg_mul, Finset.sum_neg_distrib]
    rw [← pow_succ, show M - 1 - 0 + 1 = M by omega]
    linear_combination (-1 : α) * hz
  · simp only [if_neg h0]
    rw [Finset.sum_eq_single (i - 1)]
    · rw [if_pos (by omega), one_mul, ← pow_succ]; congr 1; omega
    · intro w _ hw
      rw [if_neg (by omega), zero_mul]
    · intro h; exact absurd (Finset.mem_range.mpr (by omega)) h

end Phil.Mat
