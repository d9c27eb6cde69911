import Verif.Torch.Linalg
import Mathlib.LinearAlgebra.Matrix.ToLinearEquiv

/-!
# `torch.linalg.solve` with a vector (or a batch of vectors) on the right-hand side

A right-hand side of shape `(n,)`, or of the shape of `A` without its last axis, is a (batch of) vector(s); a one-dimensional
one is broadcast over the batch of `A`.  Matrix right-hand sides are not modelled.
-/

namespace Torch
namespace Tensor
open Finset
variable {α : Type} [Field α]

open Classical in
/-- `torch.linalg.solve(A, b)` for matrices of size `M` with leading shape `bs`. -/
noncomputable def linalgSolveAux (A b : Tensor α) (M : Nat) (bs : List Nat) : Res (Tensor α) := do
  check (2 ≤ A.rank ∧ A.size (-2) = M) "RuntimeError: linalg.solve: must be batches of square matrices"
  check (b.shape = [M] ∨ b.shape = bs ++ [M]) "NotModelled: linalg.solve with a matrix right-hand side"
  check (∀ lb, inB lb bs = true → (matAt A M M lb).det ≠ 0) "LinAlgError: the input matrix is singular"
  return ofFn (bs ++ [M]) fun l => ∑ j ∈ range M, fm (matAt A M M (l.take bs.length))⁻¹ (l.getD bs.length 0) j *
    (if b.shape = [M] then b.get [j] else b.get (l.take bs.length ++ [j]))

/-- `torch.linalg.solve(A, b)`: raises on a non-square or singular matrix. -/
noncomputable def linalgSolve (A b : Tensor α) : Res (Tensor α) :=
  linalgSolveAux A b (A.size (-1)) (A.shape.take (A.rank - 2))

theorem matAt_t2 {M : Nat} (f : Nat → Nat → α) : matAt (t2 M M f) M M [] = mat M M f := by
  ext i j
  simp [matAt, get_t2, mat]

theorem matAt_t3 {B M : Nat} (f : Nat → Nat → Nat → α) {b : Nat} (hb : b < B) :
    matAt (t3 B M M f) M M [b] = mat M M (f b) := by
  ext i j
  simp [matAt, get_t3, mat, hb]

theorem linalgSolve_t2 {M : Nat} (f : Nat → Nat → α) (c : Nat → α) (hA : (mat M M f).det ≠ 0) :
    linalgSolve (t2 M M f) (t1 M c) = .ok (t1 M fun i => ∑ j ∈ range M, fm (mat M M f)⁻¹ i j * c j) := by
  show linalgSolveAux (t2 M M f) (t1 M c) M [] = _
  refine check_step (by simp) (check_step (by simp) (check_step ?_ ?_))
  · intro lb hlb
    rw [inB_nil.1 hlb, matAt_t2]; exact hA
  · rw [pure_eq_ok]
    refine congrArg Except.ok (ext1 rfl rfl fun i hi => ?_)
    simp only [get_ofFn, get_t1, hi, List.take, List.length_nil, matAt_t2, shape_t1]
    simp only [inB, List.nil_append, hi, decide_true, Bool.and_true, if_true, List.getD_cons_zero]
    exact sum_congr rfl fun j hj => by rw [get_t1 (mem_range.1 hj)]

theorem linalgSolve_t3_t1 {B M : Nat} (f : Nat → Nat → Nat → α) (c : Nat → α) (hA : ∀ b, b < B → (mat M M (f b)).det ≠ 0) :
    linalgSolve (t3 B M M f) (t1 M c) = .ok (t2 B M fun b i => ∑ j ∈ range M, fm (mat M M (f b))⁻¹ i j * c j) := by
  show linalgSolveAux (t3 B M M f) (t1 M c) M [B] = _
  refine check_step (by simp) (check_step (by simp) (check_step ?_ ?_))
  · intro lb hlb
    obtain ⟨b, hb, rfl⟩ := inB_single.1 hlb
    rw [matAt_t3 _ hb]; exact hA b hb
  · rw [pure_eq_ok]
    refine congrArg Except.ok (ext2 rfl rfl fun b i hb hi => ?_)
    simp only [get_ofFn, get_t2, hi, hb, List.take, List.length_cons, List.length_nil, Nat.zero_add, matAt_t3 _ hb, shape_t1]
    simp only [inB, List.cons_append, List.nil_append, hi, hb, decide_true, Bool.and_true, if_true]
    exact sum_congr rfl fun j hj => by rw [get_t1 (mem_range.1 hj)]; rfl

theorem linalgSolve_t3_t2 {B M : Nat} (f : Nat → Nat → Nat → α) (c : Nat → Nat → α)
    (hA : ∀ b, b < B → (mat M M (f b)).det ≠ 0) :
    linalgSolve (t3 B M M f) (t2 B M c) = .ok (t2 B M fun b i => ∑ j ∈ range M, fm (mat M M (f b))⁻¹ i j * c b j) := by
  show linalgSolveAux (t3 B M M f) (t2 B M c) M [B] = _
  refine check_step (by simp) (check_step (by simp) (check_step ?_ ?_))
  · intro lb hlb
    obtain ⟨b, hb, rfl⟩ := inB_single.1 hlb
    rw [matAt_t3 _ hb]; exact hA b hb
  · rw [pure_eq_ok]
    refine congrArg Except.ok (ext2 rfl rfl fun b i hb hi => ?_)
    simp only [get_ofFn, get_t2, hi, hb, List.take, List.length_cons, List.length_nil, Nat.zero_add, matAt_t3 _ hb, shape_t2]
    simp only [inB, List.cons_append, List.nil_append, hi, hb, decide_true, Bool.and_true, if_true]
    refine sum_congr rfl fun j hj => ?_
    rw [if_neg (by simp), get_t2 hb (mem_range.1 hj)]; rfl

/-- What it means to solve the system. -/
theorem solve_spec {M : Nat} (f : Nat → Nat → α) (c : Nat → α) (hA : (mat M M f).det ≠ 0) {i : Nat} (hi : i < M) :
    ∑ j ∈ range M, f i j * ∑ k ∈ range M, fm (mat M M f)⁻¹ j k * c k = c i := by
  have h : ∀ k, ∑ j ∈ range M, f i j * fm (mat M M f)⁻¹ j k = fm (1 : Matrix (Fin M) (Fin M) α) i k := by
    intro k
    rw [← Matrix.mul_nonsing_inv (mat M M f) (isUnit_iff_ne_zero.2 hA), ← fm_mul]
    exact sum_congr rfl fun j hj => by rw [fm_mat f hi (mem_range.1 hj)]
  simp only [mul_sum]
  rw [sum_comm]
  simp only [← mul_assoc, ← sum_mul, h]
  rw [sum_eq_single i]
  · rw [fm_one _ _ hi, if_pos rfl, one_mul]
  · intro k _ hk; rw [fm_one _ _ hi, if_neg (Ne.symm hk), zero_mul]
  · intro hn; exact absurd (mem_range.2 hi) hn

/-- A matrix whose kernel is trivial has non-zero determinant. -/
theorem det_ne_zero_of_kernel {M : Nat} (f : Nat → Nat → α)
    (h : ∀ v : Nat → α, (∀ i, i < M → ∑ j ∈ range M, f i j * v j = 0) → ∀ i, i < M → v i = 0) : (mat M M f).det ≠ 0 := by
  intro h0
  obtain ⟨v, hv, hv0⟩ := Matrix.exists_mulVec_eq_zero_iff.2 h0
  apply hv
  funext i
  have key := h (fun j => if hj : j < M then v ⟨j, hj⟩ else 0) (fun i hi => ?_) i i.2
  · simpa using key
  · have := congrFun hv0 ⟨i, hi⟩
    simp only [Matrix.mulVec, dotProduct, mat, Matrix.of_apply, Pi.zero_apply] at this
    rw [Finset.sum_range]
    simpa using this

end Tensor
end Torch
