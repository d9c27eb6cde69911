import Verif.Torch.Solve
import Verif.Torch.EvalMul
import Mathlib.Analysis.RCLike.Basic

/-!
# `reshape`, `torch.linalg.solve` with a matrix on the right-hand side, `torch.linalg.vector_norm`
-/

namespace Torch
namespace Tensor
open Finset

section
variable {α : Type} [Zero α]
set_option linter.unusedVariables false
set_option linter.unusedSimpArgs false

/-- `x.reshape(s)` for a shape without `-1`: the elements in row-major order. -/
def reshape (x : Tensor α) (s : List Nat) : Res (Tensor α) := do
  check (x.shape.prod = s.prod) "RuntimeError: shape is invalid for input"
  return ofFn s fun l => x.get (unravel x.shape (ravel s l))

theorem reshape_nm1 (n m : Nat) (f : Nat → Nat → Nat → α) : reshape (t3 n m 1 f) [n, m] = .ok (t2 n m fun i j => f i j 0) := by
  refine check_step (by simp) ?_
  rw [pure_eq_ok]
  refine congrArg Except.ok (ext2 rfl rfl fun i j hi hj => ?_)
  have e1 : (i * m + j) / m = i := by
    rw [Nat.mul_comm, Nat.mul_add_div (by omega), Nat.div_eq_of_lt hj, Nat.add_zero]
  have e2 : (i * m + j) % m = j := by rw [Nat.mul_comm, Nat.mul_add_mod, Nat.mod_eq_of_lt hj]
  simp [get_ofFn, inB, hi, hj, unravel, ravel, ravelAux, e1, e2, Nat.mod_one, get_t3, get_t2]

theorem reshape_nmp1 (n m p : Nat) (f : Nat → Nat → Nat → Nat → α) :
    reshape (t4 n m p 1 f) [n, m, p] = .ok (t3 n m p fun i j k => f i j k 0) := by
  refine check_step (by simp) ?_
  rw [pure_eq_ok]
  refine congrArg Except.ok (ext3 rfl rfl fun i j k hi hj hk => ?_)
  have e1 : ((i * m + j) * p + k) / (m * p) = i := by
    have h1 : ((i * m + j) * p + k) / p = i * m + j := by
      rw [Nat.mul_comm, Nat.mul_add_div (by omega), Nat.div_eq_of_lt hk, Nat.add_zero]
    rw [Nat.mul_comm m p, ← Nat.div_div_eq_div_mul, h1, Nat.mul_comm, Nat.mul_add_div (by omega), Nat.div_eq_of_lt hj, Nat.add_zero]
  have e2 : ((i * m + j) * p + k) % (m * p) = j * p + k := by
    have : (i * m + j) * p + k = m * p * i + (j * p + k) := by ring
    rw [this, Nat.mul_add_mod, Nat.mod_eq_of_lt (unflatten_bound hj hk)]
  have e3 : (j * p + k) / p = j := by
    rw [Nat.mul_comm, Nat.mul_add_div (by omega), Nat.div_eq_of_lt hk, Nat.add_zero]
  have e4 : (j * p + k) % p = k := by rw [Nat.mul_comm, Nat.mul_add_mod, Nat.mod_eq_of_lt hk]
  simp [get_ofFn, inB, hi, hj, hk, unravel, ravel, ravelAux, e1, e2, e3, e4, Nat.mod_one, get_t4, get_t3, Nat.mod_eq_of_lt hk]

theorem zipWith_n11_mp (n m p : Nat) (h : α → α → α) (f : Nat → Nat → Nat → α) (g : Nat → Nat → α) :
    zipWith h (t3 n 1 1 f) (t2 m p g) = .ok (t3 n m p fun i j k => h (f i 0 0) (g j k)) := by
  tev_zip3

theorem zipWith_nm11_pq (n m p q : Nat) (h : α → α → α) (f : Nat → Nat → Nat → Nat → α) (g : Nat → Nat → α) :
    zipWith h (t4 n m 1 1 f) (t2 p q g) = .ok (t4 n m p q fun i j k o => h (f i j 0 0) (g k o)) := by
  tev_zip4

theorem zipWith_n1pq_nmpq (n m p q : Nat) (h : α → α → α) (f g : Nat → Nat → Nat → Nat → α) :
    zipWith h (t4 n 1 p q f) (t4 n m p q g) = .ok (t4 n m p q fun i j k o => h (f i 0 k o) (g i j k o)) := by
  tev_zip4

end

section
variable {α : Type} [Field α]

open Classical in
/-- `torch.linalg.solve(A, b)` for matrices of size `M`, right-hand sides with `P` columns, leading shape `bs`. -/
noncomputable def linalgSolveMatAux (A b : Tensor α) (M P : Nat) (bs : List Nat) : Res (Tensor α) := do
  check (2 ≤ A.rank ∧ A.size (-2) = M) "RuntimeError: linalg.solve: must be batches of square matrices"
  check (b.shape = bs ++ [M, P]) "NotModelled: linalg.solve with broadcasting"
  check (∀ lb, inB lb bs = true → (matAt A M M lb).det ≠ 0) "LinAlgError: the input matrix is singular"
  return ofFn (bs ++ [M, P]) fun l => ∑ j ∈ range M, fm (matAt A M M (l.take bs.length))⁻¹ (l.getD bs.length 0) j *
    b.get (l.take bs.length ++ [j, l.getD (bs.length + 1) 0])

/-- `torch.linalg.solve(A, b)` where `b` has as many axes as `A` (matrix right-hand sides, no broadcasting of the leading axes). -/
noncomputable def linalgSolveMat (A b : Tensor α) : Res (Tensor α) :=
  linalgSolveMatAux A b (A.size (-1)) (b.size (-1)) (A.shape.take (A.rank - 2))

theorem matAt_t4 {B N M : Nat} (f : Nat → Nat → Nat → Nat → α) {b t : Nat} (hb : b < B) (ht : t < N) :
    matAt (t4 B N M M f) M M [b, t] = mat M M (f b t) := by
  ext i j
  simp [matAt, get_t4, mat, hb, ht]

theorem inB_pair {lb : List Nat} {B N : Nat} : inB lb [B, N] = true ↔ ∃ b t, b < B ∧ t < N ∧ lb = [b, t] := by
  constructor
  · intro h
    match lb, h with
    | [], h => simp [inB] at h
    | [_], h => simp [inB] at h
    | [b, t], h => simp [inB] at h; exact ⟨b, t, h.1, h.2, rfl⟩
    | _ :: _ :: _ :: _, h => simp [inB] at h
  · rintro ⟨b, t, hb, ht, rfl⟩; simp [inB, hb, ht]

theorem linalgSolveMat_t3 {B M P : Nat} (f c : Nat → Nat → Nat → α) (hA : ∀ b, b < B → (mat M M (f b)).det ≠ 0) :
    linalgSolveMat (t3 B M M f) (t3 B M P c) =
      .ok (t3 B M P fun b i p => ∑ j ∈ range M, fm (mat M M (f b))⁻¹ i j * c b j p) := by
  show linalgSolveMatAux (t3 B M M f) (t3 B M P c) M P [B] = _
  refine check_step (by simp) (check_step (by simp) (check_step ?_ ?_))
  · intro lb hlb
    obtain ⟨b, hb, rfl⟩ := inB_single.1 hlb
    rw [matAt_t3 _ hb]; exact hA b hb
  · rw [pure_eq_ok]
    refine congrArg Except.ok (ext3 rfl rfl fun b i p hb hi hp => ?_)
    simp only [get_ofFn, get_t3, hi, hb, hp, List.take, List.length_cons, List.length_nil, Nat.zero_add, matAt_t3 _ hb]
    simp only [inB, List.cons_append, List.nil_append, hi, hb, hp, decide_true, Bool.and_true, if_true]
    exact sum_congr rfl fun j hj => by
      rw [show List.getD [b, i, p] 1 0 = i from rfl, show List.getD [b, i, p] (1 + 1) 0 = p from rfl, get_t3 hb (mem_range.1 hj) hp]

theorem linalgSolveMat_t4 {B N M P : Nat} (f c : Nat → Nat → Nat → Nat → α)
    (hA : ∀ b t, b < B → t < N → (mat M M (f b t)).det ≠ 0) :
    linalgSolveMat (t4 B N M M f) (t4 B N M P c) =
      .ok (t4 B N M P fun b t i p => ∑ j ∈ range M, fm (mat M M (f b t))⁻¹ i j * c b t j p) := by
  show linalgSolveMatAux (t4 B N M M f) (t4 B N M P c) M P [B, N] = _
  refine check_step (by simp) (check_step (by simp) (check_step ?_ ?_))
  · intro lb hlb
    obtain ⟨b, t, hb, ht, rfl⟩ := inB_pair.1 hlb
    rw [matAt_t4 _ hb ht]; exact hA b t hb ht
  · rw [pure_eq_ok]
    refine congrArg Except.ok (ext4 rfl rfl fun b t i p hb ht hi hp => ?_)
    simp only [get_ofFn, get_t4, hi, hb, ht, hp, List.take, List.length_cons, List.length_nil, Nat.zero_add, matAt_t4 _ hb ht]
    simp only [inB, List.cons_append, List.nil_append, hi, hb, ht, hp, decide_true, Bool.and_true, if_true]
    exact sum_congr rfl fun j hj => by
      rw [show List.getD [b, t, i, p] (1 + 1) 0 = i from rfl, show List.getD [b, t, i, p] (1 + 1 + 1) 0 = p from rfl,
        get_t4 hb ht (mem_range.1 hj) hp]

theorem linalgSolveMat_t3_singular {B M P : Nat} (f c : Nat → Nat → Nat → α) {b : Nat} (hb : b < B) (hA : (mat M M (f b)).det = 0) :
    Fails (linalgSolveMat (t3 B M M f) (t3 B M P c)) := by
  show Fails (linalgSolveMatAux (t3 B M M f) (t3 B M P c) M P [B])
  refine fails_check fun _ => fails_check fun _ => fails_check fun h => ?_
  exact absurd (by rw [matAt_t3 _ hb]; exact hA) (h [b] (inB_single.2 ⟨b, hb, rfl⟩))

theorem linalgSolveMat_t4_singular {B N M P : Nat} (f c : Nat → Nat → Nat → Nat → α) {b t : Nat} (hb : b < B) (ht : t < N)
    (hA : (mat M M (f b t)).det = 0) : Fails (linalgSolveMat (t4 B N M M f) (t4 B N M P c)) := by
  show Fails (linalgSolveMatAux (t4 B N M M f) (t4 B N M P c) M P [B, N])
  refine fails_check fun _ => fails_check fun _ => fails_check fun h => ?_
  exact absurd (by rw [matAt_t4 _ hb ht]; exact hA) (h [b, t] (inB_pair.2 ⟨b, t, hb, ht, rfl⟩))

end

section
variable {α : Type} [RCLike α]

/-- `torch.linalg.vector_norm(x, dim=-1, keepdim=True)`. -/
noncomputable def vectorNorm (x : Tensor α) : Res (Tensor α) := do
  check (0 < x.rank) "IndexError: Dimension specified as -1 but tensor has no dimensions"
  return ofFn (x.shape.dropLast ++ [1]) fun l =>
    ((Real.sqrt (∑ k ∈ range (x.size (-1)), ‖x.get (l.dropLast ++ [k])‖ ^ 2) : ℝ) : α)

theorem vectorNorm_t2 (n m : Nat) (f : Nat → Nat → α) :
    vectorNorm (t2 n m f) = .ok (t2 n 1 fun i _ => ((Real.sqrt (∑ k ∈ range m, ‖f i k‖ ^ 2) : ℝ) : α)) := by
  refine check_step (by simp) ?_
  rw [pure_eq_ok]
  refine congrArg Except.ok (ext2 rfl rfl fun i j hi hj => ?_)
  simp only [get_ofFn, get_t2 hi hj, inB, shape_t2, List.dropLast, List.cons_append, List.nil_append, hi, hj, decide_true, Bool.and_true,
    if_true]
  rw [show (t2 n m f).size (-1) = m from rfl]
  exact congrArg _ (congrArg Real.sqrt (sum_congr rfl fun k hk => by rw [get_t2 hi (mem_range.1 hk)]))

theorem vectorNorm_t3 (n m p : Nat) (f : Nat → Nat → Nat → α) :
    vectorNorm (t3 n m p f) = .ok (t3 n m 1 fun i j _ => ((Real.sqrt (∑ k ∈ range p, ‖f i j k‖ ^ 2) : ℝ) : α)) := by
  refine check_step (by simp) ?_
  rw [pure_eq_ok]
  refine congrArg Except.ok (ext3 rfl rfl fun i j k hi hj hk => ?_)
  simp only [get_ofFn, get_t3 hi hj hk, inB, shape_t3, List.dropLast, List.cons_append, List.nil_append, hi, hj, hk, decide_true,
    Bool.and_true, if_true]
  rw [show (t3 n m p f).size (-1) = p from rfl]
  exact congrArg _ (congrArg Real.sqrt (sum_congr rfl fun k hk => by rw [get_t3 hi hj (mem_range.1 hk)]))

end

end Tensor
end Torch
