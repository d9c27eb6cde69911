import Verif.Proof.ProtoPoly
import Mathlib.LinearAlgebra.Matrix.Charpoly.Basic
import Mathlib.LinearAlgebra.Matrix.Block
import Mathlib.Algebra.BigOperators.Fin
import Mathlib.Algebra.Polynomial.Monic

/-! # The companion matrix of philtorch/prototype/poly.py -/

namespace Phil.Proto
open Torch Spec Polynomial Matrix

section
variable {α : Type} [CommRing α]

/-- The entries of `X - A` for the matrix with first row `-c` and ones below the diagonal. -/
noncomputable def compN (c : Nat → α) (i j : Nat) : α[X] :=
  (if i = j then X else 0) + if i = 0 then C (c j) else if i = j + 1 then -1 else 0

/-- `X - A` for the matrix with first row `-c` and ones below the diagonal. -/
noncomputable def compX (c : Nat → α) (n : Nat) : Matrix (Fin n) (Fin n) α[X] := fun i j => compN c i j

theorem det_compX (c : Nat → α) (n : Nat) :
    (compX c n).det = X ^ n + ∑ i ∈ Finset.range n, C (c i) * X ^ (n - 1 - i) := by
  induction n with
  | zero => simp
  | succ n ih =>
    rw [det_succ_column _ (Fin.last n)]
    have hsub : (compX c (n + 1)).submatrix (Fin.last n).succAbove (Fin.last n).succAbove = compX c n := by
      ext1 i j
      rw [submatrix_apply, Fin.succAbove_last]; rfl
    have hent : ∀ i j : Fin n, (compX c (n + 1)).submatrix (Fin.succAbove 0) (Fin.last n).succAbove i j = compN c (i + 1) j := by
      intro i j
      rw [submatrix_apply, Fin.succAbove_last, Fin.zero_succAbove]; rfl
    have htri : ((compX c (n + 1)).submatrix (Fin.succAbove 0) (Fin.last n).succAbove).det = (-1) ^ n := by
      rw [det_of_isUpperTriangular]
      · rw [Finset.prod_congr rfl (g := fun _ => (-1 : α[X]))]
        · simp
        · intro i _
          rw [hent, compN, if_neg (by omega), if_neg (by omega), if_pos rfl, zero_add]
      · intro i j hij
        have hij' : j.val < i.val := hij
        rw [hent, compN, if_neg (by omega), if_neg (by omega), if_neg (by omega), zero_add]
    rcases Nat.eq_zero_or_pos n with h0 | h0
    · subst h0
      simp [compX, compN]
    · rw [Finset.sum_eq_add_of_mem (0 : Fin (n + 1)) (Fin.last n) (Finset.mem_univ _) (Finset.mem_univ _)]
      · rw [hsub, htri, ih]
        have e1 : compX c (n + 1) 0 (Fin.last n) = C (c n) := by
          show compN c 0 n = _
          rw [compN, if_neg (by omega), if_pos rfl, zero_add]
        have e2 : compX c (n + 1) (Fin.last n) (Fin.last n) = X := by
          simp only [compX, compN, Fin.val_last, if_true]
          rw [if_neg (by omega), if_neg (by omega), add_zero]
        rw [e1, e2, Finset.sum_range_succ]
        have hs : ∑ i ∈ Finset.range n, C (c i) * X ^ (n + 1 - 1 - i) = X * ∑ i ∈ Finset.range n, C (c i) * X ^ (n - 1 - i) := by
          rw [Finset.mul_sum]
          refine Finset.sum_congr rfl fun i hi => ?_
          have := Finset.mem_range.1 hi
          rw [show n + 1 - 1 - i = (n - 1 - i) + 1 by omega, pow_succ]; ring
        rw [hs]
        simp only [Fin.val_zero, Fin.val_last, Nat.zero_add, Nat.add_sub_cancel, Nat.sub_self, pow_zero, mul_one]
        have h1 : (-1 : α[X]) ^ n * (-1) ^ n = 1 := by rw [← mul_pow]; simp
        have h2 : (-1 : α[X]) ^ (n + n) = 1 := by rw [pow_add, h1]
        rw [h2]
        linear_combination (C (c n)) * h1
      · intro h; have := congrArg Fin.val h; simp at this; omega
      · intro i _ hi
        have h1 : i.val ≠ 0 := fun h => hi.1 (Fin.ext h)
        have h2 : i.val ≠ n := fun h => hi.2 (Fin.ext h)
        have : compX c (n + 1) i (Fin.last n) = 0 := by
          simp only [compX, compN, Fin.val_last]
          rw [if_neg h2, if_neg h1, if_neg (by omega), add_zero]
        rw [this]; ring
end

section
variable {α : Type} [Field α]

theorem charpoly_rootsCompanion (p : List α) (n : Nat) (hn : p.length = n + 1) (h0 : p.getD 0 0 ≠ 0) :
    C (p.getD 0 0) * (Matrix.of fun i j : Fin n => rootsCompanion p i j).charpoly = listPoly p := by
  have e : (Matrix.of fun i j : Fin n => rootsCompanion p i j).charmatrix = compX (fun j => p.getD (j + 1) 0 / p.getD 0 0) n := by
    ext1 i j
    rw [charmatrix_apply, diagonal_apply, of_apply, compX, compN, sub_eq_add_neg]
    congr 1
    · simp only [Fin.ext_iff]
    unfold rootsCompanion
    by_cases hi : i.val = 0
    · rw [if_pos hi, if_pos hi, ← C_neg, neg_div, neg_neg]
    · rw [if_neg hi, if_neg hi]
      split
      · rw [C_1]
      · rw [C_0, neg_zero]
  rw [Matrix.charpoly, e, det_compX, mul_add, Finset.mul_sum, listPoly, descPoly, hn, Finset.sum_range_succ', add_comm]
  congr 1
  refine Finset.sum_congr rfl fun i hi => ?_
  rw [← mul_assoc, ← C_mul, mul_div_cancel₀ _ h0, show n + 1 - 1 - (i + 1) = n - 1 - i by omega]

theorem prod_X_sub (r : List α) : (r.map fun z => X - C z).prod.Monic ∧ (r.map fun z => X - C z).prod.natDegree = r.length := by
  induction r with
  | nil => exact ⟨monic_one, natDegree_one⟩
  | cons z r ih =>
    rw [List.map_cons, List.prod_cons]
    refine ⟨(monic_X_sub_C z).mul ih.1, ?_⟩
    rw [(monic_X_sub_C z).natDegree_mul ih.1, natDegree_X_sub_C, ih.2, List.length_cons, add_comm]

variable [DecidableEq α]

omit [Field α] in
theorem nonzero_last [Zero α] {p : List α} {i j : Nat} {l : List Nat} (h : nonzero p = i :: j :: l) :
    ∃ k, (j :: l).getLast (by simp) = k ∧ i < k ∧ k < p.length ∧ p.getD k 0 ≠ 0 ∧ ∀ t, k < t → p.getD t 0 = 0 := by
  refine ⟨_, rfl, ?_⟩
  have hmem : (j :: l).getLast (by simp) ∈ nonzero p := by rw [h]; exact List.mem_cons_of_mem _ (List.getLast_mem _)
  have hs := nonzero_sorted p
  rw [h] at hs
  refine ⟨(List.pairwise_cons.1 hs).1 _ (List.getLast_mem _), ((mem_nonzero p _).1 hmem).1, ((mem_nonzero p _).1 hmem).2, ?_⟩
  intro t ht
  by_contra hne
  have htl : t < p.length := by
    by_contra hge
    exact hne (List.getD_eq_default _ _ (by omega))
  have hm := (mem_nonzero p t).2 ⟨htl, hne⟩
  rw [h] at hm
  have hle : ∀ (m : List Nat) (hm0 : m ≠ []), m.Pairwise (· < ·) → ∀ a ∈ m, a ≤ m.getLast hm0 := by
    intro m hm0 hp a ha
    induction m with
    | nil => exact absurd rfl hm0
    | cons b m ih =>
      cases m with
      | nil => rw [List.mem_singleton.1 ha]; rfl
      | cons c m =>
        rw [List.getLast_cons (by simp)]
        rcases List.mem_cons.1 ha with e | e
        · rw [e]; exact ((List.pairwise_cons.1 hp).1 _ (List.getLast_mem _)).le
        · exact ih (by simp) (List.pairwise_cons.1 hp).2 e
  have := hle _ (by simp) hs t hm
  rw [List.getLast_cons (by simp)] at this
  omega

/-- What is assumed of `torch.linalg.eigvals`: the eigenvalues are listed with their algebraic multiplicities. -/
def IsEigvals (eigvals : Nat → (Nat → Nat → α) → List α) : Prop :=
  ∀ N A, (Matrix.of fun i j : Fin N => A i j).charpoly = ((eigvals N A).map fun z => X - C z).prod

theorem roots_spec {eigvals : Nat → (Nat → Nat → α) → List α} (hE : IsEigvals eigvals) {p : List α} {i j : Nat} {l : List Nat}
    (h : nonzero p = i :: j :: l) :
    ∃ r, roots eigvals p = .ok r ∧ listPoly p = C (p.getD i 0) * (r.map fun z => X - C z).prod := by
  obtain ⟨k, hk, hik, hkl, hkne, hk0⟩ := nonzero_last h
  obtain ⟨hil, hine, hi0⟩ := nonzero_head h
  have hq : ((p.take (k + 1)).drop i).length = k - i + 1 := by
    rw [List.length_drop, List.length_take]; omega
  have hq0 : ((p.take (k + 1)).drop i).getD 0 0 = p.getD i 0 := by
    rw [List.getD_eq_getElem _ _ (by omega), List.getElem_drop, List.getElem_take, List.getD_eq_getElem _ _ hil]; rfl
  have hsplit : p = List.replicate i 0 ++ ((p.take (k + 1)).drop i ++ List.replicate (p.length - k - 1) 0) := by
    have h1 : (p.take (k + 1)).take i = List.replicate i 0 := by
      rw [List.take_take, Nat.min_eq_left (by omega)]
      exact take_zeros (by omega) hi0
    have h2 : p.drop (k + 1) = List.replicate (p.length - k - 1) 0 := by
      refine List.ext_getElem (by simp; omega) fun t ht1 ht2 => ?_
      rw [List.getElem_drop, List.getElem_replicate, ← hk0 (k + 1 + t) (by omega), List.getD_eq_getElem]
    rw [← List.append_assoc, ← h1, List.take_append_drop, ← h2, List.take_append_drop]
  have hr : roots eigvals p = .ok (if 0 < p.length - k - 1 then
      eigvals (k - i) (rootsCompanion ((p.take (k + 1)).drop i)) ++ List.replicate (p.length - k - 1) 0
      else eigvals (k - i) (rootsCompanion ((p.take (k + 1)).drop i))) := by
    unfold roots
    rw [h]
    simp only [hk]
    rw [if_pos (by omega : 1 < ((p.take (k + 1)).drop i).length), hq, Nat.add_sub_cancel]
  refine ⟨_, hr, ?_⟩
  conv_lhs => rw [hsplit, listPoly_zeros_append, listPoly_append, listPoly_zeros, List.length_replicate, add_zero]
  rw [← charpoly_rootsCompanion _ (k - i) hq (by rwa [hq0]), hE, hq0]
  split
  · rw [List.map_append, List.prod_append, List.map_replicate, List.prod_replicate, C_0, sub_zero, mul_assoc]
  · rw [show p.length - k - 1 = 0 by omega, pow_zero, mul_one]

end
end Phil.Proto
