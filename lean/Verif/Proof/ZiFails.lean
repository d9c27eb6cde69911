import Verif.Proof.LtiInit

/-! # `lfilter_zi` raises on a pole at one -/

namespace Spec
open Finset Torch Torch.Tensor
variable {α : Type} [Field α]

/-- A constant vector is in the kernel of `I - A` when `1 + Σ a = 0`. -/
theorem det_comp_zero {M : Nat} (hM : 0 < M) (a : Nat → α) (h : 1 + ∑ m ∈ range M, a m = 0) :
    (mat M M fun i j => (if i = j then 1 else 0) - comp a i j).det = 0 := by
  refine Matrix.exists_mulVec_eq_zero_iff.1 ⟨fun _ => 1, ?_, ?_⟩
  · intro h0
    exact one_ne_zero (congrFun h0 ⟨0, hM⟩)
  · funext i
    have e : ∑ j ∈ range M, ((if (i : Nat) = j then 1 else 0) - comp a i j) = (0 : α) := by
      have e2 := comp_mv a (fun _ => (1 : α)) i.2
      simp only [mul_one] at e2
      rw [sum_sub_distrib, sum_ite_eq, if_pos (mem_range.2 i.2), e2]
      split
      · linear_combination h
      · ring
    rw [Finset.sum_range] at e
    simpa [Matrix.mulVec, dotProduct, mat] using e

theorem det_comp_transpose_zero {M : Nat} (hM : 0 < M) (a : Nat → α) (h : 1 + ∑ m ∈ range M, a m = 0) :
    (mat M M fun i j => (if i = j then 1 else 0) - comp a j i).det = 0 := by
  have := det_comp_zero hM a h
  rw [← Matrix.det_transpose] at this
  convert this using 2
  ext i j
  simp only [mat, Matrix.of_apply, Matrix.transpose_apply]
  congr 1
  simp [eq_comm]

end Spec

namespace Phil.Lti
open Torch Torch.Tensor Spec Finset
variable {α : Type} [Field α] [StarRing α]

omit [StarRing α] in
theorem linalgSolve_fails_t2 {M : Nat} (f : Nat → Nat → α) (b : Tensor α) (h : (mat M M f).det = 0) :
    Fails (linalgSolve (t2 M M f) b) := by
  show Fails (linalgSolveAux (t2 M M f) b M [])
  refine fails_check fun _ => fails_check fun _ => fails_check fun h3 => absurd (h3 [] rfl) ?_
  rw [matAt_t2]; exact not_not.2 h

omit [StarRing α] in
theorem linalgSolve_fails_t3 {B M : Nat} (f : Nat → Nat → Nat → α) (b : Tensor α) {i : Nat} (hi : i < B)
    (h : (mat M M (f i)).det = 0) : Fails (linalgSolve (t3 B M M f) b) := by
  show Fails (linalgSolveAux (t3 B M M f) b M [B])
  refine fails_check fun _ => fails_check fun _ => fails_check fun h3 => absurd (h3 [i] (inB_single.2 ⟨i, hi, rfl⟩)) ?_
  rw [matAt_t3 _ hi]; exact not_not.2 h

omit [StarRing α] in
theorem solveSteady_fails {B M : Nat} {A C : Tensor α} {Av : Nat → Nat → Nat → α} {cv : Nat → Nat → α}
    (hA : MatVals B M M A Av) (hC : Rows B M C cv) {i : Nat} (hi : i < B)
    (hdet : (mat M M fun j k => (if j = k then 1 else 0) - Av i j k).det = 0) : Fails (solveSteady A C M) := by
  unfold solveSteady
  cases hA with
  | shared f =>
    refine fails_step (zipWith_nm_nm _ _ _ _ _) ?_
    cases hC with
    | shared g =>
      rw [if_neg (by simp)]
      exact linalgSolve_fails_t2 _ _ hdet
    | batched g =>
      rw [if_pos (by simp), shape_t2]
      exact fails_step (v := t3 B M M _) (expand_mp_nXX _ _ _ _) (linalgSolve_fails_t3 _ _ hi hdet)
  | batched f =>
    refine fails_step (zipWith_mp_nmp _ _ _ _ _ _) ?_
    rw [if_neg (by simp)]
    exact linalgSolve_fails_t3 _ _ hi hdet

theorem lfilterZi_tdf2_fails {B K P : Nat} {b a : Tensor α} {bv av : Nat → Nat → α} (hb : Rows B K b bv) (ha : Rows B P a av)
    (hK : 0 < K) (hM : 0 < max P (K - 1)) {i : Nat} (hi : i < B) (hs : 1 + ∑ k ∈ range P, av i k = 0) :
    Fails (lfilterZi a (some b) true) := by
  obtain ⟨b', a', e1, hb', ha'⟩ := padOrders_eq hb ha hK
  obtain ⟨A, e2, hA⟩ := companion_rows ha' hM
  obtain ⟨AT, e3, hAT⟩ := mT_conj hA
  obtain ⟨C, D, e4, hC, hD⟩ := outputCoefs_eq hb' ha'
  have e5 : ∀ i j k, star (comp (zext P (av i)) k j) = comp (fun k => star (zext P (av i) k)) k j := fun i j k => star_comp _ _ _
  simp only [e5] at hAT
  unfold lfilterZi
  rw [if_pos rfl]
  refine fails_check fun _ => fails_check fun _ => fails_step e1 (fails_step e2 (fails_step e3 (fails_step e4 ?_)))
  simp only [size_rows ha']
  refine solveSteady_fails hAT hC hi (det_comp_transpose_zero hM _ ?_)
  rw [zext_star, sum_zext_one (by omega), ← star_sum, ← star_one (R := α), ← star_add, hs, star_zero]

theorem lfilterZi_df2_fails {B P : Nat} {a : Tensor α} {b : Option (Tensor α)} {av : Nat → Nat → α} (ha : Rows B P a av)
    (hP : 0 < P) {i : Nat} (hi : i < B) (hs : 1 + ∑ k ∈ range P, av i k = 0) : Fails (lfilterZi a b false) := by
  obtain ⟨A, e2, hA⟩ := companion_rows ha hP
  unfold lfilterZi
  rw [if_neg (by simp), size_rows ha]
  exact fails_check fun _ => fails_step e2 (fails_check fun _ =>
    solveSteady_fails hA (.shared fun m => if m = 0 then 1 else 0) hi (det_comp_zero hP _ hs))

end Phil.Lti
