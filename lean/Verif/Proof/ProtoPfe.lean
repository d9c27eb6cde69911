import Verif.Proof.ProtoResidue
import Mathlib.Algebra.BigOperators.Group.List.Basic
import Mathlib.Algebra.BigOperators.Ring.List
import Mathlib.Algebra.BigOperators.Field
import Mathlib.Algebra.Group.Submonoid.BigOperators

/-! # Partial fractions -/

namespace Phil.Proto
open Torch Spec Polynomial
variable {α : Type} [Field α] [DecidableEq α]

omit [DecidableEq α] in
theorem prodPow_cons (x : α × Nat) (l : List (α × Nat)) : prodPow (x :: l) = (X - C x.1) ^ x.2 * prodPow l := by
  rw [prodPow, prodPow, List.map_cons, List.prod_cons]

omit [DecidableEq α] in
theorem prodPow_append (l m : List (α × Nat)) : prodPow (l ++ m) = prodPow l * prodPow m := by
  rw [prodPow, prodPow, prodPow, List.map_append, List.prod_append]

omit [DecidableEq α] in
theorem prodPow_monic (l : List (α × Nat)) : (prodPow l).Monic := by
  induction l with
  | nil => exact monic_one
  | cons x l ih => rw [prodPow_cons]; exact ((monic_X_sub_C _).pow _).mul ih

omit [DecidableEq α] in
theorem prodPow_natDegree (l : List (α × Nat)) : (prodPow l).natDegree = (l.map fun x => x.2).sum := by
  induction l with
  | nil => exact natDegree_one
  | cons x l ih =>
    rw [prodPow_cons, ((monic_X_sub_C x.1).pow _).natDegree_mul (prodPow_monic l), ih, (monic_X_sub_C x.1).natDegree_pow,
      natDegree_X_sub_C, mul_one, List.map_cons, List.sum_cons]

omit [DecidableEq α] in
theorem prodPow_eval_ne (l : List (α × Nat)) (z : α) (h : ∀ x ∈ l, z ≠ x.1) : (prodPow l).eval z ≠ 0 := by
  induction l with
  | nil => simp [prodPow]
  | cons x l ih =>
    rw [prodPow_cons, eval_mul, eval_pow, eval_sub, eval_X, eval_C]
    exact mul_ne_zero (pow_ne_zero _ (sub_ne_zero.2 (h x (by simp)))) (ih fun y hy => h y (List.mem_cons_of_mem _ hy))

omit [DecidableEq α] in
theorem prodPow_eval_ne' (l : List (α × Nat)) (z : α) (h : (prodPow l).eval z ≠ 0) (hm : ∀ x ∈ l, 0 < x.2) : ∀ x ∈ l, z ≠ x.1 := by
  rintro x hx rfl
  obtain ⟨l1, l2, rfl⟩ := List.append_of_mem hx
  rw [prodPow_append, prodPow_cons] at h
  have := hm x hx
  simp [this.ne'] at h

omit [DecidableEq α] in
theorem coprime_prodPow (p : α) (m : Nat) (l : List (α × Nat)) (h : ∀ y ∈ l, p ≠ y.1) : IsCoprime ((X - C p) ^ m) (prodPow l) := by
  induction l with
  | nil => exact isCoprime_one_right
  | cons y l ih =>
    rw [prodPow_cons]
    refine IsCoprime.mul_right (IsCoprime.pow ?_) (ih fun y hy => h y (List.mem_cons_of_mem _ hy))
    exact isCoprime_X_sub_C_of_isUnit_sub (sub_ne_zero.2 (h y (by simp))).isUnit

omit [DecidableEq α] in
theorem prodPow_dvd (T : α[X]) (l : List (α × Nat)) (hn : (l.map fun x => x.1).Nodup) (h : ∀ x ∈ l, (X - C x.1) ^ x.2 ∣ T) :
    prodPow l ∣ T := by
  induction l with
  | nil => exact one_dvd _
  | cons y l ih =>
    rw [prodPow_cons]
    rw [List.map_cons, List.nodup_cons] at hn
    refine IsCoprime.mul_dvd (coprime_prodPow y.1 y.2 l ?_) (h y (by simp)) (ih hn.2 fun x hx => h x (List.mem_cons_of_mem _ hx))
    intro x hx he
    exact hn.1 (List.mem_map.2 ⟨x, hx, he.symm⟩)

/-- A pole, its multiplicity, the product over the other poles, and the numerator belonging to it. -/
structure Part (α : Type) [Field α] where
  p : α
  m : Nat
  F : α[X]
  S : α[X]

omit [DecidableEq α] in
/-- Partial fractions: local agreement at every pole is global agreement. -/
theorem sum_of_local (L : List (Part α)) (D N : α[X]) (hD : D = prodPow (L.map fun x => (x.p, x.m)))
    (hn : (L.map fun x => x.p).Nodup) (hF : ∀ x ∈ L, x.F * (X - C x.p) ^ x.m = D) (hS : ∀ x ∈ L, x.S.degree < x.m)
    (hloc : ∀ x ∈ L, (X - C x.p) ^ x.m ∣ N - x.F * x.S) (hN : N.degree < D.degree) :
    N = (L.map fun x => x.F * x.S).sum := by
  have hDm : D.Monic := hD ▸ prodPow_monic _
  have hdvd : D ∣ N - (L.map fun x => x.F * x.S).sum := by
    rw [hD]
    refine prodPow_dvd _ _ (by rw [List.map_map]; exact hn) fun y hy => ?_
    obtain ⟨x, hx, rfl⟩ := List.mem_map.1 hy
    obtain ⟨l1, l2, hl⟩ := List.append_of_mem hx
    have hothers : ∀ y ∈ l1 ++ l2, (X - C x.p) ^ x.m ∣ y.F * y.S := by
      intro y hy
      have hyL : y ∈ L := by
        rw [hl]
        rcases List.mem_append.1 hy with h | h
        · exact List.mem_append.2 (Or.inl h)
        · exact List.mem_append.2 (Or.inr (List.mem_cons_of_mem _ h))
      have hne : x.p ≠ y.p := by
        rw [hl] at hn
        have := (List.perm_middle.map fun x : Part α => x.p).nodup_iff.1 hn
        rw [List.map_cons, List.nodup_cons] at this
        intro he
        exact this.1 (List.mem_map.2 ⟨y, hy, he.symm⟩)
      refine Dvd.dvd.mul_right ?_ _
      have h1 : (X - C x.p) ^ x.m ∣ y.F * (X - C y.p) ^ y.m := by
        rw [hF y hyL, ← hF x hx]; exact dvd_mul_left _ _
      refine IsCoprime.dvd_of_dvd_mul_right ?_ h1
      exact (isCoprime_X_sub_C_of_isUnit_sub (sub_ne_zero.2 hne).isUnit).pow
    have hsum : (L.map fun x => x.F * x.S).sum = x.F * x.S + ((l1 ++ l2).map fun x => x.F * x.S).sum := by
      rw [hl, List.map_append, List.map_cons, List.sum_append, List.sum_cons, List.map_append, List.sum_append]; ring
    rw [hsum, ← sub_sub]
    refine dvd_sub (hloc x hx) (List.dvd_sum ?_)
    intro e he
    obtain ⟨y, hy, rfl⟩ := List.mem_map.1 he
    exact hothers y hy
  have hdeg : (N - (L.map fun x => x.F * x.S).sum).degree < D.degree := by
    rw [degree_eq_natDegree hDm.ne_zero] at hN ⊢
    rw [← mem_degreeLT] at hN ⊢
    refine Submodule.sub_mem _ hN (list_sum_mem fun e he => ?_)
    obtain ⟨x, hx, rfl⟩ := List.mem_map.1 he
    rw [mem_degreeLT, ← degree_eq_natDegree hDm.ne_zero, ← hF x hx, degree_mul, degree_mul, degree_pow, degree_X_sub_C, nsmul_eq_mul,
      mul_one]
    have hF0 : x.F ≠ 0 := by
      intro h0
      have := hF x hx
      rw [h0, zero_mul] at this
      exact hDm.ne_zero this.symm
    rw [degree_eq_natDegree hF0]
    exact WithBot.add_lt_add_left (WithBot.coe_ne_bot) (hS x hx)
  exact sub_eq_zero.1 (eq_zero_of_dvd_of_degree_lt hdvd hdeg)

omit [DecidableEq α] in
theorem eval_of_local (L : List (Part α)) (D N : α[X]) (hD : D = prodPow (L.map fun x => (x.p, x.m)))
    (hn : (L.map fun x => x.p).Nodup) (hF : ∀ x ∈ L, x.F * (X - C x.p) ^ x.m = D) (hS : ∀ x ∈ L, x.S.degree < x.m)
    (hloc : ∀ x ∈ L, (X - C x.p) ^ x.m ∣ N - x.F * x.S) (hN : N.degree < D.degree) (z : α) (hz : D.eval z ≠ 0) :
    N.eval z / D.eval z = (L.map fun x => x.S.eval z / (z - x.p) ^ x.m).sum := by
  conv_lhs => rw [sum_of_local L D N hD hn hF hS hloc hN]
  rw [← coe_evalRingHom, map_list_sum, List.map_map, div_eq_mul_inv, ← List.sum_map_mul_right]
  refine congrArg List.sum (List.map_congr_left fun x hx => ?_)
  simp only [Function.comp, coe_evalRingHom, eval_mul]
  rw [← div_eq_mul_inv]
  have h := congrArg (eval z) (hF x hx)
  rw [eval_mul, eval_pow, eval_sub, eval_X, eval_C] at h
  have h1 : (z - x.p) ^ x.m ≠ 0 := fun h0 => hz (by rw [← h, h0, mul_zero])
  have h2 : x.F.eval z ≠ 0 := fun h0 => hz (by rw [← h, h0, zero_mul])
  rw [← h]
  field_simp

theorem pfe_append (r1 r2 p1 p2 : List α) (h1 : r1.length = p1.length) (hd : ∀ x ∈ p2, x ∉ p1) (z : α) :
    pfe (r1 ++ r2) (p1 ++ p2) z = pfe r1 p1 z + pfe r2 p2 z := by
  unfold pfe
  rw [List.length_append, Finset.sum_range_add]
  congr 1
  · refine Finset.sum_congr rfl fun k hk => ?_
    have hk := Finset.mem_range.1 hk
    rw [List.getD_append _ _ _ _ (by omega), List.getD_append _ _ _ _ hk, List.take_append_of_le_length (by omega)]
  · refine Finset.sum_congr rfl fun k hk => ?_
    have hk := Finset.mem_range.1 hk
    rw [List.getD_append_right _ _ _ _ (by omega), List.getD_append_right _ _ _ _ (by omega), h1, Nat.add_sub_cancel_left,
      add_assoc, List.take_length_add_append, List.count_append, List.count_eq_zero_of_not_mem, zero_add]
    refine hd _ ?_
    rw [List.getD_eq_getElem _ _ hk]; exact List.getElem_mem _

theorem pfe_replicate (R : List α) (p z : α) (hz : z ≠ p) :
    pfe R.reverse (List.replicate R.length p) z = (shiftPoly p R).eval z / (z - p) ^ R.length := by
  have h0 : z - p ≠ 0 := sub_ne_zero.2 hz
  unfold pfe shiftPoly
  rw [eval_finsetSum, Finset.sum_div, List.length_replicate, ← Finset.sum_range_reflect]
  refine Finset.sum_congr rfl fun k hk => ?_
  have hk := Finset.mem_range.1 hk
  have e1 : R.reverse.getD (R.length - 1 - k) 0 = R.getD k 0 := by
    rw [List.getD_eq_getElem _ _ (by rw [List.length_reverse]; omega), List.getElem_reverse, List.getD_eq_getElem _ _ hk]
    congr 1
    omega
  have e2 : (List.replicate R.length p).getD (R.length - 1 - k) 0 = p := by
    rw [List.getD_eq_getElem _ _ (by rw [List.length_replicate]; omega), List.getElem_replicate]
  rw [e1, e2, List.take_replicate, List.count_replicate_self, eval_mul, eval_C, eval_pow, eval_sub, eval_X, eval_C,
    div_eq_div_iff (pow_ne_zero _ h0) (pow_ne_zero _ h0), mul_assoc, ← pow_add]
  congr 2
  omega

/-- A list of poles with multiplicities and with residues, highest power first. -/
theorem pfe_flat (L : List ((α × Nat) × List α)) (hn : (L.map fun x => x.1.1).Nodup) (hl : ∀ x ∈ L, x.2.length = x.1.2) (z : α)
    (hz : ∀ x ∈ L, z ≠ x.1.1) :
    pfe (L.flatMap fun x => x.2.reverse) (repeatPoles (L.map fun x => x.1)) z =
      (L.map fun x => (shiftPoly x.1.1 x.2).eval z / (z - x.1.1) ^ x.1.2).sum := by
  induction L with
  | nil => simp [pfe, repeatPoles]
  | cons x L ih =>
    rw [List.map_cons, List.nodup_cons] at hn
    have hx := hl x (by simp)
    rw [List.flatMap_cons, List.map_cons, repeatPoles, List.flatMap_cons, pfe_append, List.map_cons, List.sum_cons]
    · congr 1
      · rw [← hx]; exact pfe_replicate _ _ _ (hz x (by simp))
      · exact ih hn.2 (fun y hy => hl y (List.mem_cons_of_mem _ hy)) fun y hy => hz y (List.mem_cons_of_mem _ hy)
    · rw [List.length_reverse, List.length_replicate, hx]
    · intro e he he'
      rw [List.eq_of_mem_replicate he'] at he
      obtain ⟨y, hy, hy'⟩ := List.mem_flatMap.1 he
      obtain ⟨w, hw, rfl⟩ := List.mem_map.1 hy
      exact hn.1 (List.mem_map.2 ⟨w, hw, (List.eq_of_mem_replicate hy').symm⟩)

end Phil.Proto
