import Verif.Model.Eigenvectors
import Verif.Spec.Eigen
import Mathlib.LinearAlgebra.Matrix.DotProduct
import Mathlib.Analysis.RCLike.Basic
import Mathlib.Algebra.BigOperators.Field
import Mathlib.LinearAlgebra.Matrix.ToLinearEquiv

/-!
# `find_eigenvectors`
-/

namespace Phil
open Finset Torch Torch.Tensor Spec
open scoped ComplexOrder

variable {α : Type} [RCLike α]

/-- An element of `A - c I`. -/
def shifted (A : Nat → Nat → α) (c : α) (i k : Nat) : α := A i k - c * (if i = k then 1 else 0)

/-- The normal equations for the components after the first one. -/
def gram (m : Nat) (A : Nat → Nat → α) (c : α) (p q : Nat) : α :=
  ∑ i ∈ range (m + 1), star (shifted A c i (p + 1)) * shifted A c i (q + 1)

/-- Right-hand side of the normal equations. -/
def gramRhs (m : Nat) (A : Nat → Nat → α) (c : α) (p : Nat) : α :=
  ∑ i ∈ range (m + 1), star (shifted A c i (p + 1)) * (- shifted A c i 0)

/-- The vector found for the eigenvalue `c`, before normalisation. -/
noncomputable def eigRow (m : Nat) (A : Nat → Nat → α) (c : α) (k : Nat) : α :=
  if k = 0 then 1 else ∑ j ∈ range m, fm (mat m m (gram m A c))⁻¹ (k - 1) j * gramRhs m A c j

theorem shifted_sum {M : Nat} (A : Nat → Nat → α) (c : α) (v : Nat → α) {i : Nat} (hi : i < M) :
    ∑ k ∈ range M, shifted A c i k * v k = ∑ k ∈ range M, A i k * v k - c * v i := by
  simp only [shifted, sub_mul, sum_sub_distrib]
  congr 1
  simp [hi]

/-- The columns after the first one. -/
def restCols (m : Nat) (A : Nat → Nat → α) (c : α) : Matrix (Fin (m + 1)) (Fin m) α := mat (m + 1) m fun i k => shifted A c i (k + 1)

theorem gram_eq (m : Nat) (A : Nat → Nat → α) (c : α) : mat m m (gram m A c) = (restCols m A c).conjTranspose * restCols m A c := by
  ext i j
  simp [mat, gram, restCols, Matrix.mul_apply, Finset.sum_range]

theorem restCols_mulVec (m : Nat) (A : Nat → Nat → α) (c : α) (v : Nat → α) (i : Fin (m + 1)) :
    (restCols m A c).mulVec (fun k : Fin m => v (k + 1)) i =
      ∑ k ∈ range (m + 1), A i k * v k - c * v i - shifted A c i 0 * v 0 := by
  rw [← shifted_sum A c v i.2, sum_range_succ', add_sub_cancel_right]
  simp [restCols, mat, Matrix.mulVec, dotProduct, Finset.sum_range]

/-- The normal equations have one solution if no eigenvector starts with zero. -/
theorem gram_det {m : Nat} {A : Nat → Nat → α} {c : α} (h : ∀ v, Eigenvector (m + 1) A c v → v 0 ≠ 0) :
    (mat m m (gram m A c)).det ≠ 0 := by
  intro h0
  obtain ⟨v, hv, e⟩ := Matrix.exists_mulVec_eq_zero_iff.2 h0
  rw [gram_eq, Matrix.conjTranspose_mul_self_mulVec_eq_zero] at e
  obtain ⟨i, hi⟩ := Function.ne_iff.1 hv
  let v' : Nat → α := fun k => if h : 0 < k ∧ k - 1 < m then v ⟨k - 1, h.2⟩ else 0
  have hv' : (fun k : Fin m => v' (k + 1)) = v := by
    funext k; simp [v']
  refine h v' ⟨⟨i + 1, by omega, ?_⟩, fun k hk => ?_⟩ (by simp [v'])
  · simpa [v'] using hi
  · have := restCols_mulVec m A c v' ⟨k, hk⟩
    rw [hv', e] at this
    simp only [Pi.zero_apply, show v' 0 = 0 by simp [v'], mul_zero, sub_zero] at this
    exact (sub_eq_zero.1 this.symm)

/-- They have none, or several, otherwise. -/
theorem gram_singular {m : Nat} {A : Nat → Nat → α} {c : α} {v : Nat → α} (hv : Eigenvector (m + 1) A c v) (h0 : v 0 = 0) :
    (mat m m (gram m A c)).det = 0 := by
  refine Matrix.exists_mulVec_eq_zero_iff.1 ⟨fun k => v (k + 1), ?_, ?_⟩
  · obtain ⟨⟨i, hi, hi'⟩, _⟩ := hv
    have : i ≠ 0 := fun h => hi' (h ▸ h0)
    refine Function.ne_iff.2 ⟨⟨i - 1, by omega⟩, ?_⟩
    simpa [show i - 1 + 1 = i by omega] using hi'
  · rw [gram_eq, Matrix.conjTranspose_mul_self_mulVec_eq_zero]
    funext i
    rw [restCols_mulVec, h0, mul_zero, sub_zero, hv.2 i i.2, sub_self]
    rfl

theorem gramRhs_eq {m : Nat} {A : Nat → Nat → α} {c : α} {v : Nat → α} (hv : Eigenvector (m + 1) A c v) (h1 : v 0 = 1) (p : Fin m) :
    gramRhs m A c p = (mat m m (gram m A c)).mulVec (fun k : Fin m => v (k + 1)) p := by
  have : (restCols m A c).mulVec (fun k : Fin m => v (k + 1)) = fun i : Fin (m + 1) => - shifted A c i 0 := by
    funext i
    rw [restCols_mulVec, hv.2 i i.2, h1, sub_self, mul_one, zero_sub]
  rw [gram_eq, ← Matrix.mulVec_mulVec, this]
  simp [gramRhs, restCols, mat, Matrix.mulVec, dotProduct, Finset.sum_range]

/-- The vector found is the eigenvector which starts with one. -/
theorem eigRow_eq {m : Nat} {A : Nat → Nat → α} {c : α} {v : Nat → α} (h : ∀ v, Eigenvector (m + 1) A c v → v 0 ≠ 0)
    (hv : Eigenvector (m + 1) A c v) (h1 : v 0 = 1) {k : Nat} (hk : k < m + 1) : eigRow m A c k = v k := by
  unfold eigRow
  split
  · next h0 => rw [h0, h1]
  · next h0 =>
    have hinv := Matrix.nonsing_inv_mul (mat m m (gram m A c)) (Ne.isUnit (gram_det h))
    have hk' : k - 1 < m := by omega
    have e : (mat m m (gram m A c))⁻¹.mulVec (fun p : Fin m => gramRhs m A c p) = fun k : Fin m => v (k + 1) := by
      rw [show (fun p : Fin m => gramRhs m A c p) = (mat m m (gram m A c)).mulVec (fun k : Fin m => v (k + 1)) from
        funext fun p => gramRhs_eq hv h1 p, Matrix.mulVec_mulVec, hinv, Matrix.one_mulVec]
    have := congrFun e ⟨k - 1, hk'⟩
    simp only [show k - 1 + 1 = k by omega] at this
    rw [← this]
    simp only [Matrix.mulVec, dotProduct]
    rw [Finset.sum_range]
    refine sum_congr rfl fun j _ => ?_
    simp [fm, hk']

/-- The vector found is an eigenvector. -/
theorem eigRow_eigen {m : Nat} {A : Nat → Nat → α} {c : α} (h : ∀ v, Eigenvector (m + 1) A c v → v 0 ≠ 0)
    (hv : ∃ v, Eigenvector (m + 1) A c v) {i : Nat} (hi : i < m + 1) :
    ∑ j ∈ range (m + 1), A i j * eigRow m A c j = c * eigRow m A c i := by
  obtain ⟨v, hv⟩ := hv
  have h0 := h v hv
  have hu : Eigenvector (m + 1) A c fun j => v j / v 0 := by
    refine ⟨⟨0, by omega, by simp [h0]⟩, fun i hi => ?_⟩
    rw [mul_div_assoc', ← hv.2 i hi, sum_div]
    exact sum_congr rfl fun j _ => by ring
  have e : ∀ k, k < m + 1 → eigRow m A c k = v k / v 0 := fun k hk => eigRow_eq h hu (div_self h0) hk
  rw [e i hi, ← hu.2 i hi]
  exact sum_congr rfl fun j hj => by rw [e j (mem_range.1 hj)]

/-- The norm of the vector found. -/
noncomputable def eigNorm (m : Nat) (A : Nat → Nat → α) (c : α) : ℝ := Real.sqrt (∑ k ∈ range (m + 1), ‖eigRow m A c k‖ ^ 2)

theorem eigNorm_pos (m : Nat) (A : Nat → Nat → α) (c : α) : 0 < eigNorm m A c := by
  refine Real.sqrt_pos.2 (sum_pos' (fun _ _ => sq_nonneg _) ⟨0, by simp, ?_⟩)
  simp [eigRow]

theorem eigNorm_unit (m : Nat) (A : Nat → Nat → α) (c : α) :
    ∑ k ∈ range (m + 1), ‖eigRow m A c k / (eigNorm m A c : α)‖ ^ 2 = 1 := by
  have h := eigNorm_pos m A c
  have h2 : eigNorm m A c ^ 2 = ∑ k ∈ range (m + 1), ‖eigRow m A c k‖ ^ 2 := Real.sq_sqrt (sum_nonneg fun _ _ => sq_nonneg _)
  simp only [norm_div, div_pow, ← sum_div, RCLike.norm_ofReal, abs_of_pos h]
  rw [← h2, div_self (pow_ne_zero 2 h.ne')]

theorem shiftedColumns_t2 (m : Nat) (A : Nat → Nat → α) (l : Nat → α) :
    shiftedColumns (t2 (m + 1) (m + 1) A) (t1 (m + 1) l) =
      .ok (t3 (m + 1) (m + 1) 1 fun e i _ => shifted A (l e) i 0, t3 (m + 1) (m + 1) m fun e i k => shifted A (l e) i (k + 1)) := by
  unfold shiftedColumns
  refine bind_step (unsqueeze_t2_n3 _ _ _) (bind_step (unsqueeze_t1_n1 _ _) (bind_step (unsqueeze_t2_n1 _ _ _)
    (bind_step (zipWith_n11_mp _ _ _ _ _ _) (bind_step (zipWith_1mp_nmp _ _ _ _ _ _) ?_))))
  unfold split2
  refine bind_step (show wrapDim _ _ = .ok 2 from rfl) (check_step (by simp; omega) ?_)
  refine bind_step (slice_t3_n1 _ _ _ _ _ _) (bind_step (slice_t3_n1 _ _ _ _ _ _) ?_)
  rw [pure_eq_ok]
  refine congrArg Except.ok (congrArg₂ Prod.mk (t3_congr rfl rfl ?_ fun e i k _ _ hk => ?_) (t3_congr rfl rfl ?_ fun e i k _ _ hk => ?_))
  · simp [pyStart, pyStop, pyBound]
  · simp only [pyStart, pyStop, pyBound] at hk
    rw [show k = 0 by simpa using hk]
    simp [pyStart, pyBound, shifted]
  · simp [pyStart, pyStop, pyBound]
  · simp [pyStart, pyBound, shifted]

theorem shiftedColumns_t3 (B m : Nat) (A : Nat → Nat → Nat → α) (l : Nat → Nat → α) :
    shiftedColumns (t3 B (m + 1) (m + 1) A) (t2 B (m + 1) l) =
      .ok (t4 B (m + 1) (m + 1) 1 fun b e i _ => shifted (A b) (l b e) i 0,
        t4 B (m + 1) (m + 1) m fun b e i k => shifted (A b) (l b e) i (k + 1)) := by
  unfold shiftedColumns
  refine bind_step (unsqueeze_t3_n3 _ _ _ _) (bind_step (unsqueeze_t2_n1 _ _ _) (bind_step (unsqueeze_t3_n1 _ _ _ _)
    (bind_step (zipWith_nm11_pq _ _ _ _ _ _ _) (bind_step (zipWith_n1pq_nmpq _ _ _ _ _ _ _) ?_))))
  unfold split2
  refine bind_step (show wrapDim _ _ = .ok 3 from rfl) (check_step (by simp; omega) ?_)
  refine bind_step (slice_t4_n1 _ _ _ _ _ _ _) (bind_step (slice_t4_n1 _ _ _ _ _ _ _) ?_)
  rw [pure_eq_ok]
  refine congrArg Except.ok (congrArg₂ Prod.mk (t4_congr rfl rfl rfl ?_ fun b e i k _ _ _ hk => ?_)
    (t4_congr rfl rfl rfl ?_ fun b e i k _ _ _ hk => ?_))
  · simp [pyStart, pyStop, pyBound]
  · simp only [pyStart, pyStop, pyBound] at hk
    rw [show k = 0 by simpa using hk]
    simp [pyStart, pyBound, shifted]
  · simp [pyStart, pyStop, pyBound]
  · simp [pyStart, pyBound, shifted]

theorem eigenRows_t2 (m : Nat) (A : Nat → Nat → α) (l : Nat → α) (hd : ∀ e, e < m + 1 → (mat m m (gram m A (l e))).det ≠ 0) :
    eigenRows (t2 (m + 1) (m + 1) A) (t3 (m + 1) (m + 1) 1 fun e i _ => shifted A (l e) i 0)
        (t3 (m + 1) (m + 1) m fun e i k => shifted A (l e) i (k + 1)) =
      .ok (t2 (m + 1) (m + 1) fun e k => eigRow m A (l e) k) := by
  unfold eigenRows
  refine bind_step (transpose_t3_n2_n1 _ _ _ _) ?_
  rw [conj, map_t3, neg, map_t3]
  refine bind_step (matmul_nmp_npq _ _ _ _ _ _) (bind_step (matmul_nmp_npq _ _ _ _ _ _) (bind_step
    (linalgSolveMat_t3 _ _ hd) (bind_step (reshape_nm1 _ _ _) ?_)))
  simp only [shape_t2, List.dropLast, List.cons_append, List.nil_append]
  rw [full_t2]
  refine (cat2_t2_n1 _ _ _ _ _).trans (congrArg Except.ok (t2_congr rfl (by omega) fun e k he hk => ?_))
  simp only [eigRow]
  by_cases h : k < 1
  · rw [if_pos h, if_pos (by omega)]
  · rw [if_neg h, if_neg (by omega)]
    rfl

theorem eigenRows_t3 (B m : Nat) (A : Nat → Nat → Nat → α) (l : Nat → Nat → α)
    (hd : ∀ b e, b < B → e < m + 1 → (mat m m (gram m (A b) (l b e))).det ≠ 0) :
    eigenRows (t3 B (m + 1) (m + 1) A) (t4 B (m + 1) (m + 1) 1 fun b e i _ => shifted (A b) (l b e) i 0)
        (t4 B (m + 1) (m + 1) m fun b e i k => shifted (A b) (l b e) i (k + 1)) =
      .ok (t3 B (m + 1) (m + 1) fun b e k => eigRow m (A b) (l b e) k) := by
  unfold eigenRows
  refine bind_step (transpose_t4_n2_n1 _ _ _ _ _) ?_
  rw [conj, map_t4, neg, map_t4]
  refine bind_step (matmul_nmpq_nmqr _ _ _ _ _ _ _) (bind_step (matmul_nmpq_nmqr _ _ _ _ _ _ _) (bind_step
    (linalgSolveMat_t4 _ _ hd) (bind_step (reshape_nmp1 _ _ _ _) ?_)))
  simp only [shape_t3, List.dropLast, List.cons_append, List.nil_append]
  rw [full_t3]
  refine (cat2_t3_n1 _ _ _ _ _ _).trans (congrArg Except.ok (t3_congr rfl rfl (by omega) fun b e k hb he hk => ?_))
  simp only [eigRow]
  by_cases h : k < 1
  · rw [if_pos h, if_pos (by omega)]
  · rw [if_neg h, if_neg (by omega)]
    rfl

theorem findEigenvectors_t2 (m : Nat) (A : Nat → Nat → α) (l : Nat → α) (hd : ∀ e, e < m + 1 → (mat m m (gram m A (l e))).det ≠ 0) :
    findEigenvectors (t2 (m + 1) (m + 1) A) (t1 (m + 1) l) =
      .ok (t2 (m + 1) (m + 1) fun i e => eigRow m A (l e) i / (eigNorm m A (l e) : α)) := by
  unfold findEigenvectors
  refine check_step (by simp) (check_step (by simp) (check_step rfl (check_step rfl ?_)))
  exact bind_step (shiftedColumns_t2 _ _ _) (bind_step (eigenRows_t2 _ _ _ hd) (bind_step (vectorNorm_t2 _ _ _)
    (bind_step (zipWith_nm_n1 _ _ _ _ _) (transpose_t2_n2_n1 _ _ _))))

theorem findEigenvectors_t3 (B m : Nat) (A : Nat → Nat → Nat → α) (l : Nat → Nat → α)
    (hd : ∀ b e, b < B → e < m + 1 → (mat m m (gram m (A b) (l b e))).det ≠ 0) :
    findEigenvectors (t3 B (m + 1) (m + 1) A) (t2 B (m + 1) l) =
      .ok (t3 B (m + 1) (m + 1) fun b i e => eigRow m (A b) (l b e) i / (eigNorm m (A b) (l b e) : α)) := by
  unfold findEigenvectors
  refine check_step (by simp) (check_step (by simp) (check_step rfl (check_step rfl ?_)))
  exact bind_step (shiftedColumns_t3 _ _ _ _) (bind_step (eigenRows_t3 _ _ _ _ hd) (bind_step (vectorNorm_t3 _ _ _ _)
    (bind_step (zipWith_nmp_nm1 _ _ _ _ _ _) (transpose_t3_n2_n1 _ _ _ _))))

theorem findEigenvectors_t2_fails (m : Nat) (A : Nat → Nat → α) (l : Nat → α) {e : Nat} (he : e < m + 1)
    (hd : (mat m m (gram m A (l e))).det = 0) : Fails (findEigenvectors (t2 (m + 1) (m + 1) A) (t1 (m + 1) l)) := by
  unfold findEigenvectors
  refine fails_check fun _ => fails_check fun _ => fails_check fun _ => fails_check fun _ => ?_
  rw [shiftedColumns_t2, ok_bind]
  refine fails_left ?_
  unfold eigenRows
  rw [show mT _ = _ from transpose_t3_n2_n1 _ _ _ _, ok_bind, conj, map_t3, neg, map_t3, matmul_nmp_npq, ok_bind, matmul_nmp_npq, ok_bind]
  exact fails_left (linalgSolveMat_t3_singular _ _ he hd)

theorem findEigenvectors_t3_fails (B m : Nat) (A : Nat → Nat → Nat → α) (l : Nat → Nat → α) {b e : Nat} (hb : b < B) (he : e < m + 1)
    (hd : (mat m m (gram m (A b) (l b e))).det = 0) : Fails (findEigenvectors (t3 B (m + 1) (m + 1) A) (t2 B (m + 1) l)) := by
  unfold findEigenvectors
  refine fails_check fun _ => fails_check fun _ => fails_check fun _ => fails_check fun _ => ?_
  rw [shiftedColumns_t3, ok_bind]
  refine fails_left ?_
  unfold eigenRows
  rw [show mT _ = _ from transpose_t4_n2_n1 _ _ _ _ _, ok_bind, conj, map_t4, neg, map_t4, matmul_nmpq_nmqr, ok_bind, matmul_nmpq_nmqr,
    ok_bind]
  exact fails_left (linalgSolveMat_t4_singular _ _ hb he hd)

end Phil
